import Verif.Model.FlaskFaults

/-!
# Starting and stopping the example application

The main part of the example application (app.py 325-331) makes the tables that are not there
(`db.create_all()`), serves on port 5000 until it is interrupted, and then, or if it cannot serve,
removes the file with the tables (app.py 27, 330-331).  What is killed otherwise does not get to remove it.

A process that is started while another one serves finds the port in use: `app.run` raises, and the
file is removed.  The one that serves opens the file for every request (the `NullPool` that SQLAlchemy
before 2.0 uses for files), so that from then on its statements fail, as there are no tables.

The processes are started, stopped and killed between requests.  How long a process takes to find
the port in use is left out.
-/

namespace WebAuthn.Flask

open WebAuthn

/-- What is done to the host of the application. -/
inductive Life where
  | request (e : Event)
  | start
  | stop
  | kill

/-- Whether a process serves, and the tables in the file; `none` if there is no file or there are no
tables in it. -/
structure Host where
  serving : Bool := false
  file : Option Db := none

/-- `db.create_all()`. -/
def Host.createAll (h : Host) : Option Db := some (h.file.getD {})

/-- What becomes of the host (app.py 325-331).  In the application `careful` is `false`; a process that is
`careful` leaves the file alone if it cannot serve. -/
def Host.next (careful : Bool) (app : App) (h : Host) : Life → Host
  | .request e =>
    match h.serving, h.file with
    | true, some db => ⟨true, some (step app e db).2⟩
    | _, _ => h
  | .start =>
    if h.serving then ⟨true, if careful then h.createAll else none⟩
    else ⟨true, h.createAll⟩
  | .stop => if h.serving then ⟨false, none⟩ else h
  | .kill => ⟨false, h.file⟩

/-- There is no answer; not a status of HTTP. -/
def noAnswer : Reply := .text "Connection refused" 0

/-- The answer to a request.  Without tables the first statement fails. -/
def Host.reply (app : App) (h : Host) (e : Event) : Reply :=
  match h.serving, h.file with
  | false, _ => noAnswer
  | true, some db => (step app e db).1
  | true, none => match task app e with
    | .done r => r
    | t => t.failure

def host (careful : Bool) (app : App) (hs : List Life) : Host := hs.foldl (Host.next careful app) {}

/-- The answer to a request after the history `hs`. -/
def lifeReply (careful : Bool) (app : App) (hs : List Life) (e : Event) : Reply := (host careful app hs).reply app e

end WebAuthn.Flask
