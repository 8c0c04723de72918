import Verif.Model.Parsers

/-!
# Client data with a byte order mark

`parse_client_data` (parsers.py 704-766) decodes with `'utf-8'` (parsers.py 720), which keeps a
leading byte order mark, at which `json.loads` gives up.  The variant decodes with `'utf-8-sig'`,
which is `'utf-8'` after leaving out one leading mark.  No part of the package is like this.
-/

namespace WebAuthn.Repaired

/-- The bytes that the codec `'utf-8-sig'` decodes as UTF-8. -/
def withoutMark : Bytes → Bytes
  | 0xef :: 0xbb :: 0xbf :: rest => rest
  | b => b

/-- `parse_client_data` with `client_data_JSON.decode('utf-8-sig')`. -/
def parseClientData (env : Env) (clientDataJSON : Bytes) : Py ClientData :=
  WebAuthn.parseClientData env (withoutMark clientDataJSON)

end WebAuthn.Repaired
