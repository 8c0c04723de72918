import Verif.Spec.Laws
import Verif.Lemmas.Origin

/-!
# A JSON parser

An instance of `json.loads` for objects, arrays, strings, integers and the three
literals (numbers with a fraction or an exponent, and escaped surrogates, are
refused).  It reads every text of `Spec/Json.lean`, so `JsonLaw` can be met.
-/

namespace WebAuthn.Json

/-- Skip white space. -/
def skip : List Char → List Char
  | [] => []
  | c :: cs => if c = ' ' ∨ c = '\n' ∨ c = '\r' ∨ c = '\t' then skip cs else c :: cs

/-- The value of a hexadecimal digit. -/
def hexVal (c : Char) : Option Nat :=
  let n := c.toNat
  if 48 ≤ n ∧ n ≤ 57 then some (n - 48)
  else if 97 ≤ n ∧ n ≤ 102 then some (n - 87)
  else if 65 ≤ n ∧ n ≤ 70 then some (n - 55)
  else none

/-- The character of a one-letter escape. -/
def escVal (c : Char) : Option Char :=
  if c = '"' then some '"'
  else if c = '\\' then some '\\'
  else if c = '/' then some '/'
  else if c = 'b' then some (Char.ofNat 8)
  else if c = 'f' then some (Char.ofNat 12)
  else if c = 'n' then some '\n'
  else if c = 'r' then some '\r'
  else if c = 't' then some '\t'
  else none

/-- Read a string after its opening quote; `acc` is what was read. -/
def str : List Char → List Char → Py (List Char × List Char)
  | '"' :: cs, acc => .ok (acc, cs)
  | '\\' :: 'u' :: a :: b :: c :: d :: cs, acc =>
    match hexVal a, hexVal b, hexVal c, hexVal d with
    | some a, some b, some c, some d =>
      let n := ((a * 16 + b) * 16 + c) * 16 + d
      if 0xd800 ≤ n ∧ n < 0xe000 then .error .jsonDecodeError
      else str cs (acc ++ [Char.ofNat n])
    | _, _, _, _ => .error .jsonDecodeError
  | '\\' :: c :: cs, acc =>
    match escVal c with
    | some e => str cs (acc ++ [e])
    | none => .error .jsonDecodeError
  | c :: cs, acc => if c.toNat < 32 then .error .jsonDecodeError else str cs (acc ++ [c])
  | [], _ => .error .jsonDecodeError

/-- `d[k] = v` on a dictionary with string keys. -/
def insert (d : Dict) (k : String) (v : PyVal) : Dict :=
  match d with
  | [] => [(.str k, v)]
  | (k', v') :: d => if k'.isKey (.str k) then (k', v) :: d else (k', v') :: insert d k v

/-- Read the members of an object. -/
def members (value : List Char → Py (PyVal × List Char)) :
    Nat → List Char → Dict → Py (Dict × List Char)
  | 0, _, _ => .error .jsonDecodeError
  | n + 1, cs, d =>
    match skip cs with
    | '"' :: cs => do
      let (k, cs) ← str cs []
      match skip cs with
      | ':' :: cs => do
        let (v, cs) ← value cs
        match skip cs with
        | ',' :: cs => members value n cs (insert d (String.ofList k) v)
        | '}' :: cs => return (insert d (String.ofList k) v, cs)
        | _ => .error .jsonDecodeError
      | _ => .error .jsonDecodeError
    | _ => .error .jsonDecodeError

/-- Read the elements of an array. -/
def elements (value : List Char → Py (PyVal × List Char)) :
    Nat → List Char → List PyVal → Py (List PyVal × List Char)
  | 0, _, _ => .error .jsonDecodeError
  | n + 1, cs, l => do
    let (v, cs) ← value cs
    match skip cs with
    | ',' :: cs => elements value n cs (l ++ [v])
    | ']' :: cs => return (l ++ [v], cs)
    | _ => .error .jsonDecodeError

/-- Read decimal digits. -/
def digits : List Char → Nat → Nat × List Char
  | [], n => (n, [])
  | c :: cs, n => if 48 ≤ c.toNat ∧ c.toNat ≤ 57 then digits cs (10 * n + (c.toNat - 48))
    else (n, c :: cs)

/-- Read an integer without leading zeros. -/
def number (neg : Bool) : List Char → Py (PyVal × List Char)
  | [] => .error .jsonDecodeError
  | c :: cs =>
    if 49 ≤ c.toNat ∧ c.toNat ≤ 57 ∨ c = '0' then
      let (n, r) := if c = '0' then (0, cs) else digits cs (c.toNat - 48)
      match r with
      | '.' :: _ => .error .jsonDecodeError
      | 'e' :: _ => .error .jsonDecodeError
      | 'E' :: _ => .error .jsonDecodeError
      | r => .ok (.int (if neg then -(n : Int) else n), r)
    else .error .jsonDecodeError

/-- Read a value of nesting depth at most `fuel`. -/
def value : (fuel : Nat) → List Char → Py (PyVal × List Char)
  | 0, _ => .error .jsonDecodeError
  | fuel + 1, cs =>
    match skip cs with
    | '"' :: cs => do
      let (s, cs) ← str cs []
      return (.str (String.ofList s), cs)
    | '{' :: cs => match skip cs with
      | '}' :: cs => .ok (.dict [], cs)
      | cs => do
        let (d, cs) ← members (value fuel) (cs.length + 1) cs []
        return (.dict d, cs)
    | '[' :: cs => match skip cs with
      | ']' :: cs => .ok (.list [], cs)
      | cs => do
        let (l, cs) ← elements (value fuel) (cs.length + 1) cs []
        return (.list l, cs)
    | 't' :: 'r' :: 'u' :: 'e' :: cs => .ok (.bool true, cs)
    | 'f' :: 'a' :: 'l' :: 's' :: 'e' :: cs => .ok (.bool false, cs)
    | 'n' :: 'u' :: 'l' :: 'l' :: cs => .ok (.none, cs)
    | '-' :: cs => number true cs
    | cs => number false cs

/-- `json.loads(text)`. -/
def loads (text : String) : Py PyVal := do
  let (v, cs) ← value (text.toList.length + 1) text.toList
  match skip cs with
  | [] => return v
  | _ => .error .jsonDecodeError

/-! ## The law -/

open Spec Spec.JsonGrammar

theorem hexVal_of {c : Char} {n : Nat} (h : HexDigit c n) : hexVal c = some n := by
  have hn : n < 16 := by
    rcases h with h | h <;> exact (List.getElem?_eq_some_iff.mp h).1
  have hlow : ∀ n < 16, ("0123456789abcdef".toList[n]?).bind hexVal = some n := by decide
  have hup : ∀ n < 16, ("0123456789ABCDEF".toList[n]?).bind hexVal = some n := by decide
  rcases h with h | h
  · have := hlow n hn
    rwa [h] at this
  · have := hup n hn
    rwa [h] at this

theorem escVal_of {e c : Char} (h : (e, c.toNat) ∈ escapes) : e ≠ 'u' ∧ escVal e = some c := by
  have hc : c = Char.ofNat c.toNat := (Char.ofNat_toNat c).symm
  simp only [escapes, List.mem_cons, Prod.mk.injEq, List.not_mem_nil, or_false] at h
  rcases h with ⟨rfl, h⟩ | ⟨rfl, h⟩ | ⟨rfl, h⟩ | ⟨rfl, h⟩ | ⟨rfl, h⟩ | ⟨rfl, h⟩ | ⟨rfl, h⟩ |
    ⟨rfl, h⟩ <;>
  · rw [h] at hc
    subst hc
    exact ⟨by decide, by decide⟩

theorem str_escape (c e : Char) (hc : c ≠ 'u') (h : escVal c = some e) (cs acc : List Char) :
    str ('\\' :: c :: cs) acc = str cs (acc ++ [e]) := by
  rw [str.eq_def]
  split
  · rename_i heq
    simp at heq
  · rename_i heq
    simp only [List.cons.injEq, true_and] at heq
    exact absurd heq.1 hc
  · rename_i heq
    simp only [List.cons.injEq, true_and] at heq
    obtain ⟨rfl, rfl⟩ := heq
    rw [h]
  · rename_i h1 heq
    simp only [List.cons.injEq] at heq
    obtain ⟨rfl, rfl⟩ := heq
    exact absurd rfl (h1 c cs rfl)
  · rename_i heq
    cases heq

theorem str_plain (c : Char) (h1 : 0x20 ≤ c.toNat) (h2 : c ≠ '"') (h3 : c ≠ '\\')
    (cs acc : List Char) : str (c :: cs) acc = str cs (acc ++ [c]) := by
  rw [str.eq_def]
  split
  · rename_i heq
    simp only [List.cons.injEq] at heq
    exact absurd heq.1 h2
  · rename_i heq
    simp only [List.cons.injEq] at heq
    exact absurd heq.1 h3
  · rename_i heq
    simp only [List.cons.injEq] at heq
    exact absurd heq.1 h3
  · rename_i heq
    simp only [List.cons.injEq] at heq
    obtain ⟨rfl, rfl⟩ := heq
    rw [if_neg (by omega)]
  · rename_i heq
    cases heq

theorem not_surrogate (c : Char) : ¬ (0xd800 ≤ c.toNat ∧ c.toNat < 0xe000) := by
  have h : c.toNat < 0xd800 ∨ 0xdfff < c.toNat ∧ c.toNat < 0x110000 := c.valid
  omega

theorem str_isChar {t : List Char} {c : Char} (h : IsChar t c) (cs acc : List Char) :
    str (t ++ cs) acc = str cs (acc ++ [c]) := by
  cases h with
  | plain _ h1 h2 h3 => exact str_plain c h1 h2 h3 cs acc
  | escape e _ h => exact str_escape e c (escVal_of h).1 (escVal_of h).2 cs acc
  | code a b d e _ w x y z h1 h2 h3 h4 h =>
    simp only [List.cons_append, List.nil_append]
    rw [str, hexVal_of h1, hexVal_of h2, hexVal_of h3, hexVal_of h4]
    simp only
    have e : ((w * 16 + x) * 16 + y) * 16 + z = c.toNat := by omega
    rw [e, if_neg (not_surrogate c), Char.ofNat_toNat]

theorem str_isChars {t s : List Char} (h : IsChars t s) (cs acc : List Char) :
    str (t ++ '"' :: cs) acc = .ok (acc ++ s, cs) := by
  induction h generalizing acc with
  | nil => simp [str]
  | cons t ts c s hc _ ih =>
    rw [List.append_assoc, str_isChar hc, ih]
    simp

theorem str_isString {t : List Char} {s : String} (h : IsString t s) :
    ∃ body, (∀ cs, t ++ cs = '"' :: (body ++ '"' :: cs)) ∧
      ∀ cs, str (body ++ '"' :: cs) [] = .ok (s.toList, cs) := by
  obtain ⟨body, rfl, hb⟩ := h
  exact ⟨body, fun cs => by simp, fun cs => str_isChars hb cs []⟩

/-! ### White space -/

theorem skip_space {w : List Char} (h : Space w) (cs : List Char) : skip (w ++ cs) = skip cs := by
  induction w with
  | nil => rfl
  | cons c w ih =>
    have hc := h c List.mem_cons_self
    rw [List.cons_append, skip, if_pos (by tauto)]
    exact ih fun x hx => h x (List.mem_cons_of_mem _ hx)

theorem skip_skip (cs : List Char) : skip (skip cs) = skip cs := by
  induction cs with
  | nil => rfl
  | cons c cs ih =>
    rw [skip]
    split_ifs with h
    · exact ih
    · rw [skip, if_neg h]

theorem value_skip (fuel : Nat) {cs cs' : List Char} (h : skip cs = skip cs') :
    value fuel cs = value fuel cs' := by
  cases fuel with
  | zero => rfl
  | succ n => simp only [value, h]

/-- What can follow a value. -/
def Follow (rest : List Char) : Prop :=
  rest = [] ∨ ∃ c cs, rest = c :: cs ∧
    (c = ' ' ∨ c = '\t' ∨ c = '\n' ∨ c = '\r' ∨ c = ',' ∨ c = ']' ∨ c = '}')

theorem follow_space {w : List Char} (h : Space w) {rest : List Char} (hr : Follow rest) :
    Follow (w ++ rest) := by
  cases w with
  | nil => exact hr
  | cons c w =>
    have := h c List.mem_cons_self
    exact Or.inr ⟨c, _, rfl, by tauto⟩

/-- The text is read as `v`. -/
def Reads (fuel : Nat) (t : List Char) (v : PyVal) : Prop :=
  ∀ rest, Follow rest → value fuel (t ++ rest) = .ok (v, rest)

theorem reads_padded {P : List Char → PyVal → Prop} {fuel : Nat} {t : List Char} {v : PyVal}
    (hP : ∀ m, P m v → m.length ≤ t.length → Reads fuel m v) (h : Padded P t v) {rest : List Char}
    (hr : Follow rest) :
    ∃ b, Space b ∧ value fuel (t ++ rest) = .ok (v, b ++ rest) := by
  obtain ⟨a, m, b, rfl, ha, hb, hm⟩ := h
  refine ⟨b, hb, ?_⟩
  rw [List.append_assoc, List.append_assoc, value_skip fuel (skip_space ha _)]
  exact hP m hm (by simp; omega) _ (follow_space hb hr)

/-! ### Numbers -/

theorem digits_append {ds : List Char} (h : ds.all (fun c => '0' ≤ c && c ≤ '9') = true) (n : Nat)
    {rest : List Char} (hr : Follow rest) :
    digits (ds ++ rest) n =
      (ds.foldl (fun acc c => acc * 10 + (c.toNat - '0'.toNat)) n, rest) := by
  induction ds generalizing n with
  | nil =>
    rcases hr with rfl | ⟨c, cs, rfl, hc⟩
    · rfl
    · rw [List.nil_append, digits, if_neg]
      · rfl
      · rcases hc with rfl | rfl | rfl | rfl | rfl | rfl | rfl <;> decide
  | cons c ds ih =>
    rw [List.all_cons, Bool.and_eq_true] at h
    obtain ⟨k, hk, rfl⟩ := digit_iff.mp h.1
    have hd : (Char.ofNat (48 + k)).toNat = 48 + k := by
      interval_cases k <;> decide
    rw [List.cons_append, digits, if_pos (by omega), ih h.2, List.foldl_cons, hd]
    rw [show ('0' : Char).toNat = 48 from rfl, Nat.mul_comm]

theorem follow_number (m : Nat) (neg : Bool) : ∀ rest : List Char, Follow rest → (match rest with
      | '.' :: _ => .error .jsonDecodeError
      | 'e' :: _ => .error .jsonDecodeError
      | 'E' :: _ => .error .jsonDecodeError
      | r => .ok (.int (if neg then -(m : Int) else m), r)) =
      (.ok (.int (if neg then -(m : Int) else m), rest) : Py (PyVal × List Char)) := by
  rintro rest (rfl | ⟨c, cs, rfl, hc⟩)
  · rfl
  · rcases hc with rfl | rfl | rfl | rfl | rfl | rfl | rfl <;> rfl

theorem number_natural {t : List Char} {n : Nat} (h : IsNatural t n) (neg : Bool)
    {rest : List Char} (hr : Follow rest) :
    number neg (t ++ rest) = .ok (.int (if neg then -(n : Int) else n), rest) := by
  obtain ⟨hd, hne, -, hz⟩ := h
  rw [decimal_iff] at hd
  obtain ⟨hd, hn⟩ := hd
  cases t with
  | nil => exact absurd rfl hne
  | cons c ds =>
    by_cases h0 : c = '0'
    · subst h0
      have := hz rfl
      cases this
      have : n = 0 := hn
      subst this
      exact follow_number 0 neg rest hr
    · rw [List.all_cons, Bool.and_eq_true] at hd
      obtain ⟨k, hk, rfl⟩ := digit_iff.mp hd.1
      have hc : (Char.ofNat (48 + k)).toNat = 48 + k := by
        interval_cases k <;> decide
      have hk0 : k ≠ 0 := by rintro rfl; exact h0 rfl
      rw [List.cons_append, number, if_pos (Or.inl (by omega))]
      simp only [if_neg h0]
      rw [digits_append hd.2 _ hr]
      have e : List.foldl (fun acc c => acc * 10 + (c.toNat - '0'.toNat))
          ((Char.ofNat (48 + k)).toNat - 48) ds = n := by
        rw [hn, decimalValue, List.foldl_cons, Nat.zero_mul, Nat.zero_add]
        rfl
      rw [e]
      exact follow_number n neg rest hr

theorem value_natural {t : List Char} {n : Nat} (h : IsNatural t n) (fuel : Nat)
    (rest : List Char) : value (fuel + 1) (t ++ rest) = number false (t ++ rest) := by
  obtain ⟨hd, hne, -⟩ := h
  cases t with
  | nil => exact absurd rfl hne
  | cons c ds =>
    have hd := (decimal_iff.mp hd).1
    rw [List.all_cons, Bool.and_eq_true] at hd
    obtain ⟨k, hk, rfl⟩ := digit_iff.mp hd.1
    interval_cases k <;> rfl

/-! ### Values -/

theorem value_quote (fuel : Nat) (cs : List Char) :
    value (fuel + 1) ('"' :: cs) =
      (str cs [] >>= fun x => .ok (.str (String.ofList x.1), x.2)) := rfl

theorem reads_scalar {t : List Char} {v : PyVal} (h : IsScalar t v) (fuel : Nat) :
    Reads (fuel + 1) t v := by
  intro rest hr
  cases h with
  | str _ s h =>
    obtain ⟨body, e, hs⟩ := str_isString h
    rw [e, value_quote, hs, ok_bind]
    simp
  | nat _ n h => rw [value_natural h, number_natural h false hr]; rfl
  | neg t n h =>
    show number true (t ++ rest) = _
    rw [number_natural h true hr]
    rfl
  | true => rfl
  | false => rfl
  | null => rfl

/-! ### Arrays -/

theorem elements_comma {v : List Char → Py (PyVal × List Char)} {n : Nat} {cs b cs2 : List Char}
    {l : List PyVal} {x : PyVal} (h : v cs = .ok (x, b ++ ',' :: cs2)) (hb : Space b) :
    elements v (n + 1) cs l = elements v n cs2 (l ++ [x]) := by
  have e : elements v (n + 1) cs l = (v cs >>= fun y =>
      match skip y.2 with
      | ',' :: cs => elements v n cs (l ++ [y.1])
      | ']' :: cs => return (l ++ [y.1], cs)
      | _ => .error .jsonDecodeError) := rfl
  have e2 : skip (',' :: cs2) = ',' :: cs2 := rfl
  rw [e, h, ok_bind]
  simp only [skip_space hb, e2]

theorem elements_end {v : List Char → Py (PyVal × List Char)} {n : Nat} {cs b cs2 : List Char}
    {l : List PyVal} {x : PyVal} (h : v cs = .ok (x, b ++ ']' :: cs2)) (hb : Space b) :
    elements v (n + 1) cs l = .ok (l ++ [x], cs2) := by
  have e : elements v (n + 1) cs l = (v cs >>= fun y =>
      match skip y.2 with
      | ',' :: cs => elements v n cs (l ++ [y.1])
      | ']' :: cs => return (l ++ [y.1], cs)
      | _ => .error .jsonDecodeError) := rfl
  have e2 : skip (']' :: cs2) = ']' :: cs2 := rfl
  rw [e, h, ok_bind]
  simp only [skip_space hb, e2]
  rfl

theorem elements_read {P : List Char → PyVal → Prop} {fuel : Nat} {t : List Char} {vs : List PyVal}
    (h : IsElements P t vs) (hP : ∀ m v, P m v → m.length ≤ t.length → Reads fuel m v) (n : Nat)
    (hn : vs.length ≤ n) (l : List PyVal) (rest : List Char) :
    elements (value fuel) n (t ++ rest) l = .ok (l ++ vs, rest) := by
  induction h generalizing n l with
  | last t v ht =>
    obtain ⟨n, rfl⟩ : ∃ m, n = m + 1 := ⟨n - 1, by simp at hn; omega⟩
    obtain ⟨b, hb, e⟩ := reads_padded (fuel := fuel) (fun m hm hl => hP m v hm (by simp; omega)) ht
      (rest := ']' :: rest) (Or.inr ⟨_, _, rfl, by simp⟩)
    rw [List.append_assoc]
    exact elements_end e hb
  | cons t v ts vs ht _ ih =>
    obtain ⟨n, rfl⟩ : ∃ m, n = m + 1 := ⟨n - 1, by simp at hn; omega⟩
    obtain ⟨b, hb, e⟩ := reads_padded (fuel := fuel) (fun m hm hl => hP m v hm (by simp; omega)) ht
      (rest := ',' :: (ts ++ rest)) (Or.inr ⟨_, _, rfl, by simp⟩)
    rw [List.append_assoc, List.cons_append, elements_comma e hb,
      ih (fun m v hm hl => hP m v hm (by simp; omega)) n (by simp at hn; omega)]
    simp

/-! ### Objects -/

theorem members_comma {v : List Char → Py (PyVal × List Char)} {n : Nat}
    {cs k cs1 a b cs2 cs3 : List Char} {d : Dict} {x : PyVal} (h0 : skip cs = '"' :: cs1)
    (h1 : str cs1 [] = .ok (k, a ++ ':' :: cs2)) (ha : Space a)
    (h2 : v cs2 = .ok (x, b ++ ',' :: cs3)) (hb : Space b) :
    members v (n + 1) cs d = members v n cs3 (insert d (String.ofList k) x) := by
  have e2 : skip (':' :: cs2) = ':' :: cs2 := rfl
  have e3 : skip (',' :: cs3) = ',' :: cs3 := rfl
  rw [members, h0]
  simp only [h1, ok_bind, skip_space ha, e2, h2, skip_space hb, e3]

theorem members_end {v : List Char → Py (PyVal × List Char)} {n : Nat}
    {cs k cs1 a b cs2 cs3 : List Char} {d : Dict} {x : PyVal} (h0 : skip cs = '"' :: cs1)
    (h1 : str cs1 [] = .ok (k, a ++ ':' :: cs2)) (ha : Space a)
    (h2 : v cs2 = .ok (x, b ++ '}' :: cs3)) (hb : Space b) :
    members v (n + 1) cs d = .ok (insert d (String.ofList k) x, cs3) := by
  have e2 : skip (':' :: cs2) = ':' :: cs2 := rfl
  have e3 : skip ('}' :: cs3) = '}' :: cs3 := rfl
  rw [members, h0]
  simp only [h1, ok_bind, skip_space ha, e2, h2, skip_space hb, e3]
  rfl

theorem padded_name {k : List Char} {name : String} (h : Padded IsString k name)
    (cs : List Char) : ∃ cs1 a, Space a ∧ skip (k ++ cs) = '"' :: cs1 ∧
      str cs1 [] = .ok (name.toList, a ++ cs) := by
  obtain ⟨a, m, b, rfl, ha, hb, hm⟩ := h
  obtain ⟨body, e, hs⟩ := str_isString hm
  refine ⟨body ++ '"' :: (b ++ cs), b, hb, ?_, hs _⟩
  rw [List.append_assoc, List.append_assoc, skip_space ha, e]
  rfl

theorem members_read {P : List Char → PyVal → Prop} {fuel : Nat} {t : List Char}
    {ms : List (String × PyVal)} (h : IsMembers P t ms)
    (hP : ∀ m v, P m v → m.length ≤ t.length → Reads fuel m v) (n : Nat) (hn : ms.length ≤ n)
    (d : Dict) (rest : List Char) :
    members (value fuel) n (t ++ rest) d =
      .ok (ms.foldl (fun d kv => insert d kv.1 kv.2) d, rest) := by
  induction h generalizing n d with
  | last k name t v hk ht =>
    obtain ⟨n, rfl⟩ : ∃ m, n = m + 1 := ⟨n - 1, by simp at hn; omega⟩
    obtain ⟨b, hb, e⟩ := reads_padded (fuel := fuel) (fun m hm hl => hP m v hm (by simp; omega)) ht
      (rest := '}' :: rest) (Or.inr ⟨_, _, rfl, by simp⟩)
    obtain ⟨cs1, a, ha, e1, e2⟩ := padded_name hk (':' :: (t ++ '}' :: rest))
    have et : k ++ ':' :: t ++ ['}'] ++ rest = k ++ ':' :: (t ++ '}' :: rest) := by simp
    rw [et, members_end e1 e2 ha e hb]
    simp
  | cons k name t v ts ms hk ht _ ih =>
    obtain ⟨n, rfl⟩ : ∃ m, n = m + 1 := ⟨n - 1, by simp at hn; omega⟩
    obtain ⟨b, hb, e⟩ := reads_padded (fuel := fuel) (fun m hm hl => hP m v hm (by simp; omega)) ht
      (rest := ',' :: (ts ++ rest)) (Or.inr ⟨_, _, rfl, by simp⟩)
    obtain ⟨cs1, a, ha, e1, e2⟩ := padded_name hk (':' :: (t ++ ',' :: (ts ++ rest)))
    have et : k ++ ':' :: t ++ ',' :: ts ++ rest = k ++ ':' :: (t ++ ',' :: (ts ++ rest)) := by simp
    rw [et, members_comma e1 e2 ha e hb,
      ih (fun m v hm hl => hP m v hm (by simp; omega)) n (by simp at hn; omega)]
    simp

theorem insert_fresh {d : Dict} {k : String} {v : PyVal} (h : .str k ∉ d.map Prod.fst) :
    insert d k v = d ++ [(.str k, v)] := by
  induction d with
  | nil => rfl
  | cons kv d ih =>
    obtain ⟨k', v'⟩ := kv
    rw [List.map_cons, List.mem_cons, not_or] at h
    have hk : k'.isKey (.str k) ≠ true := fun hk => by
      cases k' with
      | str s =>
        simp only [PyVal.isKey, beq_iff_eq] at hk
        exact h.1 (by rw [hk])
      | _ => simp [PyVal.isKey] at hk
    rw [insert, if_neg hk, ih h.2]
    rfl

theorem foldl_insert {vs : List (String × PyVal)} (h : (vs.map Prod.fst).Nodup) (d : Dict)
    (hd : ∀ k ∈ vs.map Prod.fst, .str k ∉ d.map Prod.fst) :
    vs.foldl (fun d kv => insert d kv.1 kv.2) d = d ++ dictOf vs := by
  induction vs generalizing d with
  | nil => simp [dictOf]
  | cons kv vs ih =>
    obtain ⟨k, v⟩ := kv
    rw [List.map_cons, List.nodup_cons] at h
    rw [List.foldl_cons, insert_fresh (hd k (by simp)), ih h.2]
    · simp [dictOf]
    · intro k' hk' hm
      rw [List.map_append, List.mem_append] at hm
      rcases hm with hm | hm
      · exact hd k' (by simp only [List.map_cons, List.mem_cons]; exact Or.inr hk') hm
      · simp only [List.map_cons, List.map_nil, List.mem_singleton, PyVal.str.injEq] at hm
        exact h.1 (hm ▸ hk')

theorem isElements_length {P : List Char → PyVal → Prop} {t : List Char} {vs : List PyVal}
    (h : IsElements P t vs) : vs.length ≤ t.length := by
  induction h with
  | last t v ht => simp
  | cons t v ts vs ht _ ih => simp; omega

theorem isMembers_length {P : List Char → PyVal → Prop} {t : List Char} {ms : List (String × PyVal)}
    (h : IsMembers P t ms) : ms.length ≤ t.length := by
  induction h with
  | last => simp; omega
  | cons k name t v ts ms hk ht _ ih => simp; omega

/-! ### The first character -/

/-- The text begins with a character that is neither white space nor a closing
bracket. -/
def Starts (t : List Char) : Prop :=
  ∃ c cs, t = c :: cs ∧ c ≠ ' ' ∧ c ≠ '\t' ∧ c ≠ '\n' ∧ c ≠ '\r' ∧ c ≠ ']' ∧ c ≠ '}'

theorem Starts.skip {t : List Char} (h : Starts t) (rest : List Char) :
    skip (t ++ rest) = t ++ rest := by
  obtain ⟨c, cs, rfl, h1, h2, h3, h4, -⟩ := h
  rw [List.cons_append, Json.skip, if_neg (by tauto)]

theorem Starts.append {t : List Char} (h : Starts t) (rest : List Char) : Starts (t ++ rest) := by
  obtain ⟨c, cs, rfl, h⟩ := h
  exact ⟨c, cs ++ rest, rfl, h⟩

theorem isString_starts {t : List Char} {s : String} (h : IsString t s) : Starts t := by
  obtain ⟨body, rfl, -⟩ := h
  exact ⟨'"', body ++ ['"'], rfl, by decide⟩

theorem isScalar_starts {t : List Char} {v : PyVal} (h : IsScalar t v) : Starts t := by
  cases h with
  | str _ s h => exact isString_starts h
  | nat _ n h =>
    obtain ⟨hd, hne, -⟩ := h
    cases t with
    | nil => exact absurd rfl hne
    | cons c ds =>
      have hd := (decimal_iff.mp hd).1
      rw [List.all_cons, Bool.and_eq_true] at hd
      obtain ⟨k, hk, rfl⟩ := digit_iff.mp hd.1
      refine ⟨_, ds, rfl, ?_⟩
      interval_cases k <;> decide
  | neg t n h => exact ⟨'-', t, rfl, by decide⟩
  | true => exact ⟨'t', _, rfl, by decide⟩
  | false => exact ⟨'f', _, rfl, by decide⟩
  | null => exact ⟨'n', _, rfl, by decide⟩

theorem isValue_starts {n : Nat} {t : List Char} {v : PyVal} (h : IsValue n t v) : Starts t := by
  cases n with
  | zero => exact isScalar_starts h
  | succ n =>
    rcases h with h | ⟨w, -, rfl, -⟩ | ⟨w, -, rfl, -⟩ | ⟨ts, vs, rfl, -⟩ | ⟨ts, ms, rfl, -⟩
    · exact isScalar_starts h
    · exact ⟨'[', w ++ [']'], rfl, by decide⟩
    · exact ⟨'{', w ++ ['}'], rfl, by decide⟩
    · exact ⟨'[', ts, rfl, by decide⟩
    · exact ⟨'{', ts, rfl, by decide⟩

theorem padded_strip {α : Type} {P : List Char → α → Prop} (hP : ∀ m v, P m v → Starts m)
    {t : List Char} {v : α} (h : Padded P t v) :
    ∃ w t', t = w ++ t' ∧ Space w ∧ Padded P t' v ∧ Starts t' := by
  obtain ⟨a, m, b, rfl, ha, hb, hm⟩ := h
  exact ⟨a, m ++ b, by simp, ha, ⟨[], m, b, rfl, by simp [Space], hb, hm⟩, (hP m v hm).append b⟩

theorem isElements_strip {P : List Char → PyVal → Prop} (hP : ∀ m v, P m v → Starts m)
    {t : List Char} {vs : List PyVal} (h : IsElements P t vs) :
    ∃ w t', t = w ++ t' ∧ Space w ∧ IsElements P t' vs ∧ Starts t' := by
  cases h with
  | last t v ht =>
    obtain ⟨w, t', rfl, hw, ht', hs⟩ := padded_strip hP ht
    exact ⟨w, t' ++ [']'], by simp, hw, .last _ _ ht', hs.append _⟩
  | cons t v ts vs ht h =>
    obtain ⟨w, t', rfl, hw, ht', hs⟩ := padded_strip hP ht
    exact ⟨w, t' ++ ',' :: ts, by simp, hw, .cons _ _ _ _ ht' h, hs.append _⟩

theorem isMembers_strip {P : List Char → PyVal → Prop} {t : List Char} {ms : List (String × PyVal)}
    (h : IsMembers P t ms) : ∃ w t', t = w ++ t' ∧ Space w ∧ IsMembers P t' ms ∧ Starts t' := by
  cases h with
  | last k name t v hk ht =>
    obtain ⟨w, k', rfl, hw, hk', hs⟩ := padded_strip (fun _ _ => isString_starts) hk
    exact ⟨w, k' ++ ':' :: t ++ ['}'], by simp, hw, .last _ _ _ _ hk' ht,
      (hs.append _).append _⟩
  | cons k name t v ts ms hk ht h =>
    obtain ⟨w, k', rfl, hw, hk', hs⟩ := padded_strip (fun _ _ => isString_starts) hk
    exact ⟨w, k' ++ ':' :: t ++ ',' :: ts, by simp, hw, .cons _ _ _ _ _ _ hk' ht h,
      (hs.append _).append _⟩

/-! ### The parser reads JSON -/

/-- An array after its bracket and white space. -/
def afterBracket (fuel : Nat) : List Char → Py (PyVal × List Char)
  | ']' :: cs => .ok (.list [], cs)
  | cs => elements (value fuel) (cs.length + 1) cs [] >>= fun x => .ok (.list x.1, x.2)

/-- An object after its brace and white space. -/
def afterBrace (fuel : Nat) : List Char → Py (PyVal × List Char)
  | '}' :: cs => .ok (.dict [], cs)
  | cs => members (value fuel) (cs.length + 1) cs [] >>= fun x => .ok (.dict x.1, x.2)

theorem value_bracket (fuel : Nat) (cs : List Char) :
    value (fuel + 1) ('[' :: cs) = afterBracket fuel (skip cs) := rfl

theorem value_brace (fuel : Nat) (cs : List Char) :
    value (fuel + 1) ('{' :: cs) = afterBrace fuel (skip cs) := rfl

theorem afterBracket_starts (fuel : Nat) {cs : List Char} (h : Starts cs) :
    afterBracket fuel (skip cs) =
      (elements (value fuel) (cs.length + 1) cs [] >>= fun x => .ok (.list x.1, x.2)) := by
  have e := h.skip []
  rw [List.append_nil] at e
  rw [e]
  obtain ⟨c, cs, rfl, -, -, -, -, h5, -⟩ := h
  unfold afterBracket
  split
  · rename_i heq
    exact absurd (List.cons.inj heq).1 h5
  · rfl

theorem afterBrace_starts (fuel : Nat) {cs : List Char} (h : Starts cs) :
    afterBrace fuel (skip cs) =
      (members (value fuel) (cs.length + 1) cs [] >>= fun x => .ok (.dict x.1, x.2)) := by
  have e := h.skip []
  rw [List.append_nil] at e
  rw [e]
  obtain ⟨c, cs, rfl, -, -, -, -, -, h5⟩ := h
  unfold afterBrace
  split
  · rename_i heq
    exact absurd (List.cons.inj heq).1 h5
  · rfl

theorem reads_value {n : Nat} {t : List Char} {v : PyVal} (h : IsValue n t v) {fuel : Nat}
    (hf : t.length ≤ fuel) : Reads fuel t v := by
  induction n generalizing t v fuel with
  | zero =>
    obtain ⟨c, cs, rfl, -⟩ := isScalar_starts h
    obtain ⟨f, rfl⟩ : ∃ f, fuel = f + 1 := ⟨fuel - 1, by simp at hf; omega⟩
    exact reads_scalar h f
  | succ n ih =>
    obtain ⟨f, rfl⟩ : ∃ f, fuel = f + 1 := by
      obtain ⟨c, cs, rfl, -⟩ := isValue_starts h
      exact ⟨fuel - 1, by simp at hf; omega⟩
    rcases h with h | ⟨w, hw, rfl, rfl⟩ | ⟨w, hw, rfl, rfl⟩ | ⟨ts, vs, rfl, h, rfl⟩ |
      ⟨ts, ms, rfl, h, hd, rfl⟩
    · exact reads_scalar h f
    · intro rest _
      rw [List.cons_append, List.cons_append, List.append_assoc, value_bracket, skip_space hw]
      rfl
    · intro rest _
      rw [List.cons_append, List.cons_append, List.append_assoc, value_brace, skip_space hw]
      rfl
    · intro rest _
      obtain ⟨w, t', rfl, hw, h', hs⟩ := isElements_strip (fun _ _ => isValue_starts) h
      simp only [List.length_cons, List.length_append] at hf
      rw [List.cons_append, List.append_assoc, value_bracket, skip_space hw,
        afterBracket_starts f (hs.append _), elements_read h' (fun m v hm hl => ih hm (by omega)) _
          (by have := isElements_length h'; simp; omega)]
      rfl
    · intro rest _
      obtain ⟨w, t', rfl, hw, h', hs⟩ := isMembers_strip h
      simp only [List.length_cons, List.length_append] at hf
      rw [List.cons_append, List.append_assoc, value_brace, skip_space hw,
        afterBrace_starts f (hs.append _), members_read h' (fun m v hm hl => ih hm (by omega)) _
          (by have := isMembers_length h'; simp; omega), foldl_insert hd [] (by simp)]
      rfl

/-- The parser satisfies the law. -/
theorem jsonLaw {env : Env} (h : env.jsonLoads = loads) : JsonLaw env := by
  intro s v hv
  rw [h, loads]
  obtain ⟨b, hb, e⟩ := reads_padded (fuel := s.toList.length + 1)
    (fun m hm hl => reads_value hm (by omega)) hv (rest := []) (Or.inl rfl)
  rw [List.append_nil] at e
  rw [e, ok_bind]
  simp only [List.append_nil]
  have : skip b = [] := by
    have := skip_space hb []
    rwa [List.append_nil] at this
  rw [this]
  rfl

end WebAuthn.Json
