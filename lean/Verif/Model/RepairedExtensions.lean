import Verif.Model.Backend

/-!
# Extension outputs, repaired

Not code of the repository.  `parse_extensions` (parsers.py 362-491) with the checks that the
documentation of types.py 504-547, 716-747 calls for, and a login with the AppID extension.
They show that C79 and C80 can be met.
-/

namespace WebAuthn.Repaired

open WebAuthn

/-- A number that is real, in units of `2 ^ -1074`: `math.isfinite` and an exact comparison. -/
def units : Num → Option Int
  | .int n => some (n * 2 ^ 1074)
  | .float f =>
    let n := f.bits.toNat
    let e := n / 2 ^ 52 % 2 ^ 11
    let m := n % 2 ^ 52
    if e = 2047 then none
    else
      let v : Nat := if e = 0 then m else (2 ^ 52 + m) * 2 ^ (e - 1)
      some (if n / 2 ^ 63 = 1 then -v else v)

/-- `math.isnan`. -/
def nan : Num → Bool
  | .int _ => false
  | .float f => f.bits.toNat / 2 ^ 52 % 2 ^ 11 == 2047 && f.bits.toNat % 2 ^ 52 != 0

/-- `math.isfinite(x) and x >= 0`. -/
def atLeastZero (x : Num) : Bool := (units x).any (0 ≤ ·)

/-- `x is None or p(x)`. -/
def ifGiven (p : Num → Bool) (x : Option Num) : Bool := x.all p

/-- `math.isnan(x)` if the speed is 0, otherwise `0 <= x < 360`. -/
def heading (c : Coordinates) (x : Num) : Bool :=
  if c.speed.any fun s => units s == some 0 then nan x
  else (units x).any fun v => 0 ≤ v && v < 360 * 2 ^ 1074

def position (c : Coordinates) : Bool :=
  c.latitude.any (fun x => (units x).isSome) && c.longitude.any (fun x => (units x).isSome) &&
  ifGiven (fun x => (units x).isSome) c.altitude && c.accuracy.any atLeastZero &&
  ifGiven (fun x => atLeastZero x && c.altitude.isSome) c.altitudeAccuracy &&
  ifGiven atLeastZero c.speed && ifGiven (heading c) c.heading

def parseExtensions (d : Dict) : Py Extensions := do
  let e ← WebAuthn.parseExtensions d
  require (e.authnSel != some false) .parser
  require (e.biometricPerfBounds != some false) .parser
  require (e.loc.all position) .parser
  require (e.uvm.all fun l => l.all fun entry => entry.length == 3) .parser
  return e

/-- Whether the extension outputs of the response say that the AppID was used. -/
def appIdUsed (env : Env) (a : AssertionArgs) : Bool :=
  match a.credential.response with
  | .assertion _ raw _ _ =>
    match parseAuthenticatorData env raw with
    | .ok ad => ad.extensions.any fun e => e.appid == some true
    | .error _ => false
  | .attestation .. => false

/-- `handle_credential_assertion` (backends.py 232-457) of a Relying Party with an AppID: the
RP id is replaced if the AppID was used. -/
def handleAppId (env : Env) (appId : String) (σ : Type) (reg : Registrar σ) (a : AssertionArgs)
    (s : σ) : Py Unit × σ :=
  handleAssertion env reg
    (if appIdUsed env a then
      { a with rp := some { (a.rp.getD { name := "", id := "" }) with id := appId } }
    else a) s

end WebAuthn.Repaired
