import Verif.Props.PageFlow
import Verif.Props.PageDemo

/-!
# C78: flows of honest users, and flows that disturb each other
-/

namespace WebAuthn.Flask.Page

open WebAuthn WebAuthn.Spec WebAuthn.Props

variable {own : Bool} {app : App} {w w' : World} {acts : List Act}

/-- Several things happen. -/
def World.after (own : Bool) (app : App) (w : World) (l : List Act) : World := l.foldl (World.act own app) w

theorem world_append (acts more : List Act) :
    world own app (acts ++ more) = (world own app acts).after own app more := by
  simp [world, World.after, List.foldl_append]

theorem after_append (l m : List Act) : w.after own app (l ++ m) = (w.after own app l).after own app m := by
  simp [World.after, List.foldl_append]

theorem set_snoc {α : Type} (l : List α) (x y : α) : (l ++ [x]).set l.length y = l ++ [y] := by
  rw [List.set_append_right _ _ (Nat.le_refl _)]
  simp

/-- The acts of a flow until the browser is asked. -/
def opening (b : Button) (name : String) (n : Nat) (hd ch : Bytes) (t : Int) : List Act :=
  [.click b name, .serve n hd ch t, .arrive n, .read n]

theorem opening_world {b : Button} {name : String} {hd ch : Bytes} {t : Int} {e : Event} {v opts : PyVal}
    (he : eventOf b (.ask name) hd ch t = some e) (hr : reply app w.events e = .json v)
    (ho : optionsFor b (.json v) = some opts) :
    ∃ g : Globals, (g.slots b).request = v ∧ (g.slots b).username = some name ∧
      w.after own app (opening b name w.flows.length hd ch t) = {
        page := g
        flows := w.flows ++ [⟨b, .credential name (.json v), .sent (.authenticator opts)⟩]
        events := w.events ++ [e]
        notes := w.notes ++ [.clicked w.flows.length b name, .replied w.flows.length (.json v),
          .called w.flows.length opts] } := by
  have hb : afterBody b name (start b name w.page) (.json v) = ((afterBody b name (start b name w.page)
      (.json v)).1, .credential name (.json v), some (.authenticator opts)) := by
    simp only [afterBody, ho]
  refine ⟨(afterBody b name (start b name w.page) (.json v)).1, ?_, ?_, ?_⟩
  · simp only [afterBody, ho]
    cases b <;> rfl
  · simp only [afterBody, ho]
    cases b <;> rfl
  · simp only [World.after, opening, List.foldl_cons, List.foldl_nil, World.act,
      List.getElem?_concat_length, he, hr, set_snoc, World.signal, resume, ok, if_true, noteSignal,
      noteCall, List.append_nil]
    rw [hb]
    simp

theorem submit_world {i : Nat} {b : Button} {name : String} {r : Reply} {wi : Wire} {c : Credential} {f : Form}
    (hi : w.flows[i]? = some ⟨b, .credential name r, wi⟩)
    (hs : own = true ∨ r = .json (w.page.slots b).request ∧ (w.page.slots b).username = some name)
    (hf : credentialForm b r c name = some f) :
    w.act own app (.credential i (some c)) = {
      page := (w.page.set b { w.page.slots b with credential := some c }).say (submittingText b name)
      flows := w.flows.set i ⟨b, .response f, .sent (.submit f)⟩
      events := w.events
      notes := w.notes ++ [.made i c, .submitted i f] } := by
  have e := afterCredential_fits (own := own) (c := some c) hs
  simp only [Option.bind_some, hf] at e
  simp [World.act, hi, World.signal, resume, e, noteSignal, noteCall]

/-- The page uses whatever the shared variables are. -/
theorem submit_shared {i : Nat} {b : Button} {name name' : String} {r : Reply} {v : PyVal} {wi : Wire}
    {c : Credential} {f : Form} (hi : w.flows[i]? = some ⟨b, .credential name r, wi⟩)
    (h1 : (w.page.slots b).request = v) (h2 : (w.page.slots b).username = some name')
    (hf : credentialForm b (.json v) c name' = some f) :
    (w.act false app (.credential i (some c))).notes = w.notes ++ [.made i c, .submitted i f] := by
  have e : afterCredential false b name r w.page (some c) =
      afterCredential false b name' (.json v) w.page (some c) := rfl
  have e' := afterCredential_fits (own := false) (b := b) (n := name') (r := .json v) (g := w.page)
    (c := some c) (Or.inr ⟨by rw [h1], h2⟩)
  simp only [Option.bind_some, hf] at e'
  simp [World.act, hi, World.signal, resume, e, e', noteSignal, noteCall]

theorem close_world {i : Nat} {b : Button} {f : Form} {hd ch : Bytes} {t : Int}
    (hi : w.flows[i]? = some ⟨b, .response f, .sent (.submit f)⟩)
    (hr : reply app w.events (responseEvent b f t) = success) :
    (w.after own app [.serve i hd ch t, .arrive i]).page.status =
        successText b (shown (if own then f.username else (w.page.slots b).username)) ∧
      (w.after own app [.serve i hd ch t, .arrive i]).events = w.events ++ [responseEvent b f t] := by
  have he : eventOf b (.submit f) hd ch t = some (responseEvent b f t) := by cases b <;> rfl
  have hlt : i < w.flows.length := (List.getElem?_eq_some_iff.mp hi).1
  have h2 : ∀ x : Flow, (w.flows.set i x)[i]? = some x := fun x => by
    rw [List.getElem?_set_self hlt]
  simp only [World.after, List.foldl_cons, List.foldl_nil, World.act, hi, he, hr, h2, World.signal, resume,
    afterResponse]
  exact ⟨rfl, trivial⟩

theorem others_world (mid : List Event) :
    w.after own app (mid.map .other) = { w with events := w.events ++ mid } := by
  induction mid generalizing w with
  | nil => simp [World.after]
  | cons e mid ih =>
    have : w.after own app ((e :: mid).map .other) =
        (w.act own app (.other e)).after own app (mid.map .other) := rfl
    rw [this, ih]
    simp [World.act]

/-- A flow that is not disturbed, from the click to the last reply. -/
theorem whole_flow {b : Button} {name : String} {hd ch : Bytes} {t now : Int} {e : Event} {v opts : PyVal}
    {mid : List Event} {c : Credential} {f : Form} (acts : List Act)
    (he : eventOf b (.ask name) hd ch t = some e)
    (hr : reply app (world own app acts).events e = .json v) (ho : optionsFor b (.json v) = some opts)
    (hf : credentialForm b (.json v) c name = some f)
    (hs : reply app ((world own app acts).events ++ e :: mid) (responseEvent b f now) = success) :
    Tells (world own app (acts ++ opening b name (world own app acts).flows.length hd ch t ++
      mid.map .other ++ [.credential (world own app acts).flows.length (some c),
        .serve (world own app acts).flows.length [] [] now, .arrive (world own app acts).flows.length]))
      b name := by
  obtain ⟨g, h1, h2, h3⟩ := opening_world (own := own) (app := app) (w := world own app acts) he hr ho
  rw [telling_iff, world_append, world_append, world_append, h3, others_world]
  dsimp only
  have h4 : ∀ (x : World) a l, x.after own app (a :: l) = (x.act own app a).after own app l :=
    fun _ _ _ => rfl
  rw [h4]
  rw [submit_world (b := b) (name := name) (r := .json v) (wi := .sent (.authenticator opts)) (c := c)
    (f := f) (by simp) (Or.inr ⟨by rw [h1], h2⟩) hf]
  dsimp only
  rw [set_snoc]
  have h5 := (close_world (own := own) (app := app) (w := ⟨(g.set b { g.slots b with
      credential := some c }).say (submittingText b name), (world own app acts).flows ++
      [⟨b, .response f, .sent (.submit f)⟩], (world own app acts).events ++ [e] ++ mid,
      (world own app acts).notes ++ [.clicked (world own app acts).flows.length b name,
        .replied (world own app acts).flows.length (.json v),
        .called (world own app acts).flows.length opts] ++
      [.made (world own app acts).flows.length c, .submitted (world own app acts).flows.length f]⟩)
    (i := (world own app acts).flows.length) (b := b) (f := f) (hd := []) (ch := []) (t := now)
    (by simp) (by simpa using hs)).1
  rw [h5]
  refine telling_success.mpr ⟨rfl, ?_⟩
  rw [slots_say, slots_set_self, h2, credentialForm_name hf, ite_self]
  rfl

/-- The browser is asked for a credential in the flow. -/
theorem whole_asked {b : Button} {name : String} {hd ch : Bytes} {t : Int} {e : Event} {v opts : PyVal}
    (acts : List Act) (he : eventOf b (.ask name) hd ch t = some e)
    (hr : reply app (world own app acts).events e = .json v) (ho : optionsFor b (.json v) = some opts) :
    .called (world own app acts).flows.length opts ∈
      (world own app (acts ++ opening b name (world own app acts).flows.length hd ch t)).notes := by
  obtain ⟨g, -, -, h3⟩ := opening_world (own := own) (app := app) (w := world own app acts) he hr ho
  rw [world_append, h3]
  simp

/-- C78: whatever has happened, a click on Register that the application answers makes
the page ask the browser for a credential; if an honest browser and authenticator make
it and the flow is not disturbed, the page tells that the user is registered. -/
theorem C78_registration (codec : CodecLaws app.env) (json : JsonLaw app.env) (rows : RowIdLaw app)
    (acts : List Act) {name : String} {hd ch : Bytes} {t : Int} {v : PyVal} {n : Nat}
    (hn : n = (world own app acts).flows.length) {evs : List Event}
    (hevs : evs = (world own app acts).events) (hl : evs.length < 2 ^ 53)
    (hr : reply app evs (.registrationRequest (some name) hd ch t) = .json v) :
    ∃ opts, .called n opts ∈ (world own app (acts ++ opening .register name n hd ch t)).notes ∧
      ∀ mid now c k key, Created app.env "http://localhost:5000" opts c k → coseKey app.env k = .ok key →
        now - t ≤ 60000 →
        (∀ pre' e' name' k', Occurs (evs ++ .registrationRequest (some name) hd ch t :: mid) pre' e' →
          ¬ Registers app pre' e' c.rawId name' k') →
        Tells (world own app (acts ++ opening .register name n hd ch t ++ mid.map .other ++
          [.credential n (some c), .serve n [] [] now, .arrive n])) .register name := by
  subst hn hevs
  obtain ⟨opts, h1, h2⟩ := C57_registration codec json rows hl hr
  refine ⟨opts, whole_asked acts rfl hr h1, fun mid now c k key hc hk ht hn => ?_⟩
  obtain ⟨f, h3, h4⟩ := h2 mid now c k key hc hk ht hn
  exact whole_flow acts rfl hr h1 h3 h4

/-- C78: the same of Authenticate. -/
theorem C78_authentication (codec : CodecLaws app.env) (json : JsonLaw app.env) (rows : RowIdLaw app)
    (acts : List Act) {name : String} {ch : Bytes} {t : Int} {v : PyVal} {n : Nat}
    (hn : n = (world own app acts).flows.length) {evs : List Event}
    (hevs : evs = (world own app acts).events) (hl : evs.length < 2 ^ 53)
    (hr : reply app evs (.authenticationRequest (some name) ch t) = .json v) :
    ∃ opts, .called n opts ∈ (world own app (acts ++ opening .authenticate name n [] ch t)).notes ∧
      ∀ mid now c k m handle, Asserted app.env "http://localhost:5000" opts c k m handle →
        (∀ pre' e' k', Occurs evs pre' e' → Registers app pre' e' c.rawId name k' → k' = k) →
        (∀ h, handle = some h → h = [] ∨ HandleGiven app evs name h) →
        now - t ≤ 60000 →
        (∀ pre' e' m', Occurs (evs ++ .authenticationRequest (some name) ch t :: mid) pre' e' →
          Authenticates app pre' e' c.rawId m' → m' < m) →
        Tells (world own app (acts ++ opening .authenticate name n [] ch t ++ mid.map .other ++
          [.credential n (some c), .serve n [] [] now, .arrive n])) .authenticate name := by
  subst hn hevs
  obtain ⟨opts, h1, h2⟩ := C57_authentication codec json rows hl hr
  refine ⟨opts, whole_asked acts rfl hr h1, fun mid now c k m handle hc hk hh ht hn => ?_⟩
  obtain ⟨f, h3, h4⟩ := h2 mid now c k m handle hc hk hh ht hn
  exact whole_flow acts rfl hr h1 h3 h4

/-! ## Flows that disturb each other -/

/-- C78: a credential that was made for one challenge is refused with the number of
another: when forms are mixed up no user is registered or authorized. -/
theorem C78_mixed_refused (json : JsonLaw app.env) {evs pre : List Event} {e : Event} {f : Form} {b : Button}
    {n : Nat} {ch ch' : Bytes} {t t' : Int} {name name' : String} {c : Credential} {type origin : String}
    (hi : Issues app pre e n ch t' name') (ho : Occurs evs pre e)
    (hf : Submits app f n c name) (hc : ClientDataFor type ch' origin c.response.clientDataJSON)
    (hne : ch' ≠ ch) : reply app evs (responseEvent b f t) ≠ success := by
  intro h
  have hs : Succeeds app evs (responseEvent b f t) t n c name :=
    ⟨h, f, by cases b; exacts [Or.inl rfl, Or.inr rfl], hf⟩
  obtain ⟨pre', e'', ch'', t'', name'', d, text, h1, h2, -, ⟨u, hu, hd⟩, h3, h4⟩ :=
    C50_fresh_challenge hs
  obtain ⟨_, -, -, r1⟩ := issued_row ho hi
  obtain ⟨_, -, -, r2⟩ := issued_row h1 h2
  obtain rfl : ch'' = ch := by
    obtain ⟨i, hi⟩ := List.getElem?_of_mem r1
    obtain ⟨j, hj⟩ := List.getElem?_of_mem r2
    have e1 : n = i + 1 := (inv_run app evs).challengeIds i _ hi
    have e2 : n = j + 1 := (inv_run app evs).challengeIds j _ hj
    obtain rfl : i = j := by omega
    rw [hi] at hj
    exact (Challenge.mk.inj (Option.some.inj hj)).2.1.symm
  obtain ⟨text', h5, u', d', hu', hd', -, h6, -⟩ := hc
  obtain rfl := utf8_inj hu hu'
  rw [json _ _ hd'] at hd
  obtain rfl : d' = d := by simpa using hd
  rw [lookup_iff] at h3 h6
  rw [h3] at h6
  obtain rfl : text = text' := by simpa using h6
  rw [← urlBase64Decode_ok_iff] at h4 h5
  rw [h4] at h5
  exact hne (Except.ok.inj h5).symm

/-- C78: a flow awaits the reply to its response; meanwhile the same button is clicked
with another user name and the new flow reads its reply.  If the response of the first
flow is accepted, the page tells so of the other user name, whatever it is. -/
theorem C78_disturbed {i : Nat} {b : Button} {f : Form} {name : String} {hd ch : Bytes} {t now : Int}
    {e : Event} {v opts : PyVal} (acts : List Act)
    (hi : (world false app acts).flows[i]? = some ⟨b, .response f, .sent (.submit f)⟩)
    (he : eventOf b (.ask name) hd ch t = some e)
    (hr : reply app (world false app acts).events e = .json v) (ho : optionsFor b (.json v) = some opts)
    (hs : reply app ((world false app acts).events ++ [e]) (responseEvent b f now) = success) :
    Tells (world false app (acts ++ opening b name (world false app acts).flows.length hd ch t ++
        [.serve i [] [] now, .arrive i])) b name ∧
      (world false app (acts ++ opening b name (world false app acts).flows.length hd ch t ++
        [.serve i [] [] now, .arrive i])).events =
        (world false app acts).events ++ [e, responseEvent b f now] := by
  obtain ⟨g, -, h2, h3⟩ := opening_world (own := false) (app := app) (w := world false app acts) he hr ho
  rw [telling_iff, world_append, world_append, h3]
  have hlt : i < (world false app acts).flows.length := (List.getElem?_eq_some_iff.mp hi).1
  obtain ⟨h4, h5⟩ := close_world (own := false) (app := app) (w := ⟨g, (world false app acts).flows ++
      [⟨b, .credential name (.json v), .sent (.authenticator opts)⟩], (world false app acts).events ++ [e],
      (world false app acts).notes ++ [.clicked (world false app acts).flows.length b name,
        .replied (world false app acts).flows.length (.json v),
        .called (world false app acts).flows.length opts]⟩) (i := i) (b := b) (f := f) (hd := [])
    (ch := []) (t := now) (by rw [← hi]; exact List.getElem?_append_left hlt) hs
  rw [h4, h5]
  refine ⟨telling_success.mpr ⟨rfl, ?_⟩, by simp⟩
  show shown (g.slots b).username = name
  rw [h2]
  rfl

end WebAuthn.Flask.Page

namespace WebAuthn.Flask.PageRun

open WebAuthn WebAuthn.Spec WebAuthn.Props WebAuthn.Flask.Page

/-- Bob asks for a registration. -/
def request' : Event := .registrationRequest (some "bob") Run.handle2 Run.challenge2 1000

/-- Both requests are answered, and Ada's response is accepted. -/
theorem both : ∃ v opts f v' opts' n', reply app [] request = .json v ∧
    Page.creationCall (.json v) = some opts ∧
    Page.registrationForm (.json v) (Run.regCredential Run.challenge1) "ada" = some f ∧
    reply app [request] request' = .json v' ∧ Page.creationCall (.json v') = some opts' ∧
    reply app [request, request'] (.registrationResponse f 5000) = success ∧
    Issues app [request] request' n' Run.challenge2 1000 "bob" ∧
    ∃ f', Page.registrationForm (.json v') (Run.regCredential Run.challenge1) "bob" = some f' ∧
      Submits app f' n' (Run.regCredential Run.challenge1) "bob" := by
  obtain ⟨v, hv⟩ := C57_registration_answered (app := app) (pre := []) "ada" (hd := Run.handle1)
    (ch := Run.challenge1) 0 (fun _ _ _ _ _ h => absurd h nothing) (fun _ _ _ _ h => absurd h nothing)
  obtain ⟨v', hv'⟩ := C57_registration_answered (app := app) (pre := [request]) "bob" (hd := Run.handle2)
    (ch := Run.challenge2) 1000 (by
      rintro pre e n t name h ⟨-, ⟨_, rfl⟩ | rfl⟩
      · have := (Event.registrationRequest.inj (occurs_one h).2).2.2.1
        exact absurd this (by decide)
      · cases (occurs_one h).2) (by
      intro pre name ch t h
      have := (Event.registrationRequest.inj (occurs_one h).2).2.1
      exact absurd this (by decide))
  obtain ⟨opts, u, h1, -, -, h4⟩ := C57_creation_argument hv
  obtain ⟨opts', u', h1', -⟩ := C57_creation_argument hv'
  obtain ⟨opts'', h1'', h5⟩ := C57_registration (app := app) (pre := []) Demo.codec Demo.json rows
    (by decide) hv
  rw [h1] at h1''
  cases h1''
  obtain ⟨f, h6, h7⟩ := h5 [request'] 5000 (Run.regCredential Run.challenge1) Demo.key Run.storedKey
    (created h4) Run.storedKey_eq (by decide) (by
      rintro pre' e' name' k' ⟨post, h⟩ ⟨f', t', _, _, _, _, _, _, _, rfl, -⟩
      have : Event.registrationResponse f' t' ∈ [request, request'] := by
        have h : [request, request'] = _ := h
        rw [h]
        simp
      simp [request, request'] at this)
  obtain ⟨_, n', x, -, -, hn, hw, -⟩ := registrationRequest_json hv'
  have hn : n' ≤ 2 := hn
  obtain ⟨f', hf', hs'⟩ := C57_registration_form (app := app) Demo.json rows (n := n') (by omega)
    "creationOptions" x (c := Run.regCredential Run.challenge1) rfl "bob"
  exact ⟨v, opts, f, v', opts', n', hv, h1, h6, hv', h1', h7, ⟨⟨_, _, by rw [← hw]; exact hv'⟩,
    Or.inl ⟨_, rfl⟩⟩, f', by rw [hw]; exact hf', hs'⟩

/-- Ada's flow until her credential is submitted. -/
def adaActs : List Act := opening .register "ada" 0 Run.handle1 Run.challenge1 0

def adaSubmits : List Act := adaActs ++ [.credential 0 (some (Run.regCredential Run.challenge1))]

theorem ada_world {own : Bool} {v opts : PyVal} (hv : reply app [] request = .json v)
    (ho : Page.creationCall (.json v) = some opts) : ∃ g : Globals, (g.slots .register).request = v ∧
      (g.slots .register).username = some "ada" ∧ world own app adaActs = {
        page := g
        flows := [⟨.register, .credential "ada" (.json v), .sent (.authenticator opts)⟩]
        events := [request]
        notes := [.clicked 0 .register "ada", .replied 0 (.json v), .called 0 opts] } :=
  opening_world (own := own) (app := app) (w := {}) (b := .register) rfl hv ho

theorem ada_submits {own : Bool} {v opts : PyVal} {f : Form} (hv : reply app [] request = .json v)
    (ho : Page.creationCall (.json v) = some opts)
    (hf : Page.registrationForm (.json v) (Run.regCredential Run.challenge1) "ada" = some f) :
    (world own app adaSubmits).flows = [⟨.register, .response f, .sent (.submit f)⟩] ∧
      (world own app adaSubmits).events = [request] := by
  obtain ⟨g, h1, h2, h3⟩ := ada_world (own := own) hv ho
  have : world own app adaSubmits = (world own app adaActs).act own app
      (.credential 0 (some (Run.regCredential Run.challenge1))) := world_snoc _ _
  rw [this, h3, submit_world (b := .register) (name := "ada") (r := .json v)
    (wi := .sent (.authenticator opts)) (f := f) rfl (Or.inr ⟨by rw [h1], h2⟩) hf]
  exact ⟨rfl, rfl⟩

/-- What the page tells is not always so: Ada's response is under way, someone clicks
Register with the user name of Bob, then the page tells that Bob is registered. -/
theorem C78_truthful_refuted : ∃ app acts, CodecLaws app.env ∧ JsonLaw app.env ∧ RowIdLaw app ∧
    ¬ Truthful app (world false app acts) := by
  obtain ⟨v, opts, f, v', opts', -, hv, ho, hf, hv', ho', hs, -⟩ := both
  obtain ⟨h1, h2⟩ := ada_submits (own := false) hv ho hf
  obtain ⟨ht, he⟩ := C78_disturbed (app := app) (i := 0) (b := .register) (f := f) (name := "bob")
    (hd := Run.handle2) (ch := Run.challenge2) (t := 1000) (now := 5000) adaSubmits
    (by rw [h1]; rfl) rfl (by rw [h2]; exact hv') ho' (by rw [h2]; exact hs)
  refine ⟨app, adaSubmits ++ opening .register "bob" (world false app adaSubmits).flows.length Run.handle2
    Run.challenge2 1000 ++ [.serve 0 [] [] 5000, .arrive 0], Demo.codec, Demo.json, rows, fun htr => ?_⟩
  obtain ⟨pre, f', t, n, c, hoc, -, f'', hf'', hsub⟩ := htr .register "bob" ht
  rw [he, h2] at hoc
  obtain ⟨post, hoc⟩ := hoc
  have hmem : Event.registrationResponse f' t ∈ [request, request', .registrationResponse f 5000] := by
    have hoc : [request, request', .registrationResponse f 5000] = _ := hoc
    rw [hoc]
    simp [responseEvent]
  simp only [request, request', List.mem_cons, List.not_mem_nil, or_false, reduceCtorEq, false_or,
    Event.registrationResponse.injEq] at hmem
  obtain ⟨rfl, rfl⟩ := hmem
  obtain ⟨_, _, _, _, _, _, _, _, hb⟩ := hsub
  rcases hf'' with hf'' | hf''
  · obtain ⟨rfl, -⟩ := Event.registrationResponse.inj hf''
    rw [credentialForm_name (b := .register) hf] at hb
    exact absurd (Option.some.inj hb) (by decide)
  · cases hf''

/-- The acts of the two flows in which the second reads its reply before the first has
a credential. -/
def bothActs : List Act := adaActs ++ opening .register "bob" 1 Run.handle2 Run.challenge2 1000 ++
  [.credential 0 (some (Run.regCredential Run.challenge1))]

/-- Forms are mixed up: the page submits the credential that was made for Ada with the
challenge and the user name of Bob. -/
theorem C78_coherent_refuted : ∃ app acts, CodecLaws app.env ∧ JsonLaw app.env ∧ RowIdLaw app ∧
    ¬ Coherent (world false app acts) := by
  obtain ⟨v, opts, f, v', opts', n', hv, ho, hf, hv', ho', hs, hi, f', hf', hs'⟩ := both
  obtain ⟨g, h1, h2, h3⟩ := ada_world (own := false) hv ho
  refine ⟨app, bothActs, Demo.codec, Demo.json, rows, fun h => ?_⟩
  obtain ⟨g', h4, h5, h6⟩ := opening_world (own := false) (app := app) (w := world false app adaActs)
    (b := .register) (name := "bob") (hd := Run.handle2) (ch := Run.challenge2) (t := 1000) rfl
    (by rw [h3]; exact hv') ho'
  have hw : world false app bothActs = ((world false app adaActs).after false app (opening .register "bob"
      (world false app adaActs).flows.length Run.handle2 Run.challenge2 1000)).act false app
      (.credential 0 (some (Run.regCredential Run.challenge1))) := by
    rw [h3, ← h3, ← world_append, ← world_snoc]
    rfl
  have hn := submit_shared (app := app) (w := ⟨g', [⟨.register, .credential "ada" (.json v),
      .sent (.authenticator opts)⟩, ⟨.register, .credential "bob" (.json v'),
      .sent (.authenticator opts')⟩], [request, request'], [.clicked 0 .register "ada",
      .replied 0 (.json v), .called 0 opts, .clicked 1 .register "bob", .replied 1 (.json v'),
      .called 1 opts']⟩) (i := 0) (b := .register) (c := Run.regCredential Run.challenge1) rfl h4 h5 hf'
  rw [h3] at h6
  have h6 : _ = World.mk g' [⟨.register, .credential "ada" (.json v),
      .sent (.authenticator opts)⟩, ⟨.register, .credential "bob" (.json v'),
      .sent (.authenticator opts')⟩] [request, request'] [.clicked 0 .register "ada",
      .replied 0 (.json v), .called 0 opts, .clicked 1 .register "bob", .replied 1 (.json v'),
      .called 1 opts'] := h6
  rw [h3, h6] at hw
  rw [← hw] at hn
  obtain ⟨b, name, r, c, h7, -, -, h8⟩ := h 0 f' (by rw [hn]; simp)
  rw [hn] at h7
  simp at h7
  obtain ⟨rfl, rfl⟩ := h7
  have := (credentialForm_name h8).symm.trans (credentialForm_name (b := .register) hf')
  exact absurd (Option.some.inj this) (by decide)

/-! ## Instances -/

/-- Ada's whole flow. -/
def adaAll : List Act := adaActs ++ [].map Act.other ++
  [.credential 0 (some (Run.regCredential Run.challenge1)), .serve 0 [] [] 5000, .arrive 0]

theorem ada_once (own : Bool) : OneAtATime own app adaAll := by
  intro pre b name fl hp
  match pre, hp with
  | [], _ => exact fun h => by simp [world] at h
  | _ :: pre, hp =>
    obtain ⟨-, hp⟩ := List.cons_prefix_cons.mp hp
    have : Act.click b name ∈ pre ++ [.click b name] := by simp
    have := hp.subset this
    simp at this

/-- Ada's flow does not disturb others, and the page tells that she is registered, which
is so (instances of `C78_one_at_a_time`, `C78_registration`, `C78_truthful_partial`). -/
example (own : Bool) : Undisturbed own app adaAll ∧ Page.Tells (world own app adaAll) .register "ada" ∧
    Accepted app (world false app adaAll).events .register "ada" := by
  obtain ⟨v, hv⟩ := C57_registration_answered (app := app) (pre := []) "ada" (hd := Run.handle1)
    (ch := Run.challenge1) 0 (fun _ _ _ _ _ h => absurd h nothing) (fun _ _ _ _ h => absurd h nothing)
  obtain ⟨opts, u, h1, -, -, h4⟩ := C57_creation_argument hv
  have ht : ∀ own, Page.Tells (world own app adaAll) .register "ada" := by
    intro own
    obtain ⟨opts', h2, h3⟩ := C78_registration (own := own) (app := app) Demo.codec Demo.json rows []
      (name := "ada") (hd := Run.handle1) (ch := Run.challenge1) (t := 0) (n := 0) rfl (evs := []) rfl
      (by decide) hv
    have h2 : Note.called 0 opts' ∈ (world own app adaActs).notes := h2
    obtain ⟨g, -, -, hw⟩ := ada_world (own := own) hv h1
    rw [hw] at h2
    simp at h2
    subst h2
    exact h3 [] 5000 (Run.regCredential Run.challenge1) Demo.key Run.storedKey (created h4)
      Run.storedKey_eq (by decide) (by
        rintro pre' e' name' k' ho ⟨_, _, _, _, _, _, _, _, _, rfl, -⟩
        obtain ⟨-, h⟩ := occurs_one ho
        cases h)
  exact ⟨C78_one_at_a_time (ada_once own), ht own,
    C78_truthful_partial (C78_one_at_a_time (ada_once false)) _ _ (ht false)⟩

/-- Bob's click between Ada's response and its reply (an instance of `C78_disturbed`);
if flows have variables of their own, the page tells of Ada (`C78_repaired_conclusion`). -/
example : ∃ acts acts', Page.Tells (world false app acts) .register "bob" ∧
    Page.Tells (world true app acts') .register "ada" := by
  obtain ⟨v, opts, f, v', opts', -, hv, ho, hf, hv', ho', hs, -⟩ := both
  obtain ⟨h1, h2⟩ := ada_submits (own := false) hv ho hf
  obtain ⟨h3, h4⟩ := ada_submits (own := true) hv ho hf
  obtain ⟨ht, -⟩ := C78_disturbed (app := app) (i := 0) (b := .register) (f := f) (name := "bob")
    (hd := Run.handle2) (ch := Run.challenge2) (t := 1000) (now := 5000) adaSubmits
    (by rw [h1]; rfl) rfl (by rw [h2]; exact hv') ho' (by rw [h2]; exact hs)
  obtain ⟨g, -, -, h5⟩ := opening_world (own := true) (app := app) (w := world true app adaSubmits)
    (b := .register) (name := "bob") (hd := Run.handle2) (ch := Run.challenge2) (t := 1000) rfl
    (by rw [h4]; exact hv') ho'
  rw [h3, h4] at h5
  have h6 : (world true app (adaSubmits ++ opening .register "bob" 1 Run.handle2 Run.challenge2 1000 ++
      [.serve 0 [] [] 5000])).flows[0]? = some ⟨.register, .response f, .answered success⟩ := by
    rw [world_append, world_append]
    have h5 : (world true app adaSubmits).after true app
      (opening .register "bob" 1 Run.handle2 Run.challenge2 1000) = _ := h5
    rw [h5]
    show some (Flow.mk _ _ (.answered (reply app [request, request'] (.registrationResponse f 5000)))) = _
    rw [hs]
  obtain ⟨name, h7, h8, h9⟩ := C78_repaired_conclusion h6
  rw [credentialForm_name (b := .register) hf] at h8
  obtain rfl := Option.some.inj h8
  exact ⟨_, _, ht, h9.mpr rfl⟩

/-- The form that mixes up Ada's credential and Bob's challenge (an instance of
`C78_mixed_refused`). -/
example : ∃ n' f', Submits app f' n' (Run.regCredential Run.challenge1) "bob" ∧
    reply app [request, request'] (.registrationResponse f' 5000) ≠ success := by
  obtain ⟨v, opts, f, v', opts', n', hv, ho, hf, hv', ho', hs, hi, f', hf', hs'⟩ := both
  exact ⟨n', f', hs', C78_mixed_refused (b := .register) Demo.json hi ⟨[], rfl⟩ hs'
    ⟨_, (C38_base64url_encoding _).1, Run.clientData_text _ _⟩ (by decide)⟩

end WebAuthn.Flask.PageRun
