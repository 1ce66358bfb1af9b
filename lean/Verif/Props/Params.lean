import Verif.Model.Params
import Verif.Model.Util
import Verif.Spec.Params
import Mathlib.Tactic.Linarith

/-!
# C30, C31, C59, C60: `load_params`
-/

namespace Verif
open Spec

section
variable {K : Type} [Field K]

/-- The settings as a function of the key. -/
def Globals.get (g : Globals K) : Key → Val K
  | .standardName => .text g.standardTimezoneName
  | .standardOffset => .num g.standardTimezoneOffset
  | .daylightName => g.daylightTimezoneName.elim .unset .text
  | .daylightOffset => g.daylightTimezoneOffset.elim .unset .num
  | .longitude => .num g.longitude
  | .latitude => .num g.latitude
  | .textPath => g.vsop87dTextPath.elim .unset .text
  | .binaryPath => g.vsop87dBinaryPath.elim .unset .text

/-- Nothing else is part of the settings. -/
theorem Globals.get_injective {g g' : Globals K} (h : g.get = g'.get) : g = g' := by
  obtain ⟨a1, a2, a3, a4, a5, a6, a7, a8⟩ := g
  obtain ⟨b1, b2, b3, b4, b5, b6, b7, b8⟩ := g'
  have h1 := congrFun h .standardName
  have h2 := congrFun h .standardOffset
  have h3 := congrFun h .daylightName
  have h4 := congrFun h .daylightOffset
  have h5 := congrFun h .longitude
  have h6 := congrFun h .latitude
  have h7 := congrFun h .textPath
  have h8 := congrFun h .binaryPath
  simp only [Globals.get, Val.text.injEq, Val.num.injEq] at h1 h2 h5 h6
  subst h1 h2 h5 h6
  cases a3 <;> cases b3 <;> cases a4 <;> cases b4 <;> cases a7 <;> cases b7 <;> cases a8 <;>
    cases b8 <;> simp_all [Globals.get]

/-! ### Fuel -/

variable (toRad : K → K) (parse : String → Option K)

abbrev Stream := List String × Option PyErr

theorem getToken_len {st st' : Stream} {t : String} (h : getToken st = .ok (t, st')) :
    st'.1.length ≤ st.1.length := by
  obtain ⟨_ | ⟨a, l⟩, _ | e⟩ := st <;> simp [getToken] at h <;> obtain ⟨-, rfl⟩ := h <;> simp

theorem getFloat_len {st st' : Stream} {x : K} (h : getFloat parse st = .ok (x, st')) :
    st'.1.length ≤ st.1.length := by
  unfold getFloat at h
  rcases h1 : getToken st with e | ⟨t, s1⟩
  · rw [h1] at h; cases h
  · rw [h1] at h
    have := getToken_len h1
    simp only [bind, Except.bind] at h
    split at h <;> cases h
    exact this

theorem getOffset_len {st st' : Stream} {x : K} (h : getOffset parse st = .ok (x, st')) :
    st'.1.length ≤ st.1.length := by
  unfold getOffset at h
  rcases h1 : getFloat parse st with e | ⟨t, s1⟩
  · rw [h1] at h; cases h
  rw [h1] at h
  simp only [bind, Except.bind] at h
  rcases h2 : getToken s1 with e | ⟨u, s2⟩
  · rw [h2] at h; cases h
  rw [h2] at h
  have a := getFloat_len parse h1
  have b := getToken_len h2
  simp only [] at h
  split_ifs at h <;> cases h <;> omega

theorem getLongitude_len {st st' : Stream} {x : K} (h : getLongitude toRad parse st = .ok (x, st')) :
    st'.1.length ≤ st.1.length := by
  unfold getLongitude at h
  rcases h1 : getFloat parse st with e | ⟨t, s1⟩
  · rw [h1] at h; cases h
  rw [h1] at h
  simp only [bind, Except.bind] at h
  rcases h2 : getToken s1 with e | ⟨u, s2⟩
  · rw [h2] at h; cases h
  rw [h2] at h
  have a := getFloat_len parse h1
  have b := getToken_len h2
  simp only [] at h
  split at h <;> cases h; omega

theorem getLatitude_len {st st' : Stream} {x : K} (h : getLatitude toRad parse st = .ok (x, st')) :
    st'.1.length ≤ st.1.length := by
  unfold getLatitude at h
  rcases h1 : getFloat parse st with e | ⟨t, s1⟩
  · rw [h1] at h; cases h
  rw [h1] at h
  simp only [bind, Except.bind] at h
  rcases h2 : getToken s1 with e | ⟨u, s2⟩
  · rw [h2] at h; cases h
  rw [h2] at h
  have a := getFloat_len parse h1
  have b := getToken_len h2
  simp only [] at h
  split at h <;> cases h; omega

theorem assign_next {α : Type} {g g' : Globals K} {set : α → Globals K}
    {r : Except PyErr (α × Stream)} {st' : Stream} (h : assign g set r = .next g' st') :
    ∃ v, r = .ok (v, st') ∧ g' = set v := by
  rcases r with e | ⟨v, st⟩
  · cases h
  · cases h; exact ⟨v, rfl, rfl⟩

/-- Every turn of the loop that goes on consumes a token. -/
theorem loadStep_len {g g' : Globals K} {st st' : Stream}
    (h : loadStep toRad parse g st = .next g' st') : st'.1.length < st.1.length := by
  obtain ⟨_ | ⟨t, ts⟩, e⟩ := st
  · rcases e with _ | e <;> simp [loadStep, getToken] at h
  · have key : st'.1.length ≤ (ts, e).1.length := by
      simp only [loadStep, getToken] at h
      split_ifs at h <;> first
        | (obtain ⟨v, hv, -⟩ := assign_next h; exact getToken_len hv)
        | (obtain ⟨v, hv, -⟩ := assign_next h; exact getOffset_len parse hv)
        | (obtain ⟨v, hv, -⟩ := assign_next h; exact getLongitude_len toRad parse hv)
        | (obtain ⟨v, hv, -⟩ := assign_next h; exact getLatitude_len toRad parse hv)
    simp only [List.length_cons] at key ⊢
    omega

/-- The bound on the number of turns is never reached. -/
theorem loadRun_enough (n : ℕ) (g : Globals K) (st : Stream) (h : st.1.length < n) :
    loadRun toRad parse n g st = loadTokens toRad parse g st := by
  induction n using Nat.strong_induction_on generalizing g st with
  | _ n ih =>
    rcases n with _ | n
    · omega
    unfold loadTokens
    simp only [loadRun]
    rcases hs : loadStep toRad parse g st with g' | ⟨g', e⟩ | ⟨g', st'⟩
    · rfl
    · rfl
    · have := loadStep_len toRad parse hs
      simp only []
      rw [ih n (by omega) g' st' (by omega), ih _ (by omega) g' st' (by omega)]

theorem loadTokens_eq (g : Globals K) (st : Stream) :
    loadTokens toRad parse g st = match loadStep toRad parse g st with
      | .done g => (g, .ok ())
      | .raise g e => (g, .error e)
      | .next g st => loadTokens toRad parse g st := by
  conv_lhs => unfold loadTokens
  simp only [loadRun]
  rcases hs : loadStep toRad parse g st with g' | ⟨g', e⟩ | ⟨g', st'⟩
  · rfl
  · rfl
  · simp only []
    exact loadRun_enough toRad parse _ _ _ (loadStep_len toRad parse hs)

/-! ### C30 -/

/-- An entry that the documentation allows. -/
def Spec.Entry.Valid (e : Entry) : Prop := (e.value toRad parse).isSome

theorem offset_units {w : String} {f : K} (hu : (Key.standardOffset.units (K := K)).lookup w = some f) :
    (w = "day" ∨ w = "days") ∧ f = 1 ∨ (w = "hour" ∨ w = "hours") ∧ f = 1 / 24 ∨
    (w = "minute" ∨ w = "minutes") ∧ f = 1 / 1440 ∨
    (w = "second" ∨ w = "seconds") ∧ f = 1 / 86400 := by
  simp only [Key.units, List.lookup] at hu
  repeat' split at hu
  all_goals first
    | (rename_i hw; rw [beq_iff_eq] at hw; cases hu; subst hw; simp)
    | cases hu

theorem offset_units_none {w : String} (hu : (Key.standardOffset.units (K := K)).lookup w = none) :
    w ∉ ["day", "days", "hour", "hours", "minute", "minutes", "second", "seconds"] := by
  intro h
  simp only [List.mem_cons, List.not_mem_nil, or_false] at h
  rcases h with rfl | rfl | rfl | rfl | rfl | rfl | rfl | rfl <;> simp [Key.units, List.lookup] at hu

theorem getFloat_cons (s : String) (rest : List String) (err : Option PyErr) :
    getFloat parse (s :: rest, err) = match parse s with
      | none => .error (.ValueError "could not convert string to float")
      | some x => .ok (x, (rest, err)) := rfl

theorem getOffset_ok {s u : String} {x f : K} (rest : List String) (err : Option PyErr)
    (hx : parse s = some x) (hu : (Key.standardOffset.units (K := K)).lookup u.toLower = some f) :
    getOffset parse (s :: u :: rest, err) = .ok (x * f, (rest, err)) := by
  unfold getOffset
  rw [getFloat_cons, hx]
  simp only [bind, Except.bind, getToken]
  rcases offset_units hu with ⟨h | h, rfl⟩ | ⟨h | h, rfl⟩ | ⟨h | h, rfl⟩ | ⟨h | h, rfl⟩ <;>
    rw [h] <;> simp [div_eq_mul_inv]

theorem getLongitude_ok {s u : String} {x f : K} (rest : List String) (err : Option PyErr)
    (hx : parse s = some x) (hu : (Key.longitude.units (K := K)).lookup u.toLower = some f) :
    getLongitude toRad parse (s :: u :: rest, err) = .ok (toRad (x * f), (rest, err)) := by
  unfold getLongitude
  rw [getFloat_cons, hx]
  simp only [bind, Except.bind, getToken]
  simp only [Key.units, List.lookup] at hu
  repeat' split at hu
  all_goals first
    | (rename_i hw; rw [beq_iff_eq] at hw; cases hu; rw [hw]; simp)
    | cases hu

theorem getLatitude_ok {s u : String} {x f : K} (rest : List String) (err : Option PyErr)
    (hx : parse s = some x) (hu : (Key.latitude.units (K := K)).lookup u.toLower = some f) :
    getLatitude toRad parse (s :: u :: rest, err) = .ok (toRad (x * f), (rest, err)) := by
  unfold getLatitude
  rw [getFloat_cons, hx]
  simp only [bind, Except.bind, getToken]
  simp only [Key.units, List.lookup] at hu
  repeat' split at hu
  all_goals first
    | (rename_i hw; rw [beq_iff_eq] at hw; cases hu; rw [hw]; simp)
    | cases hu

/-- A valid entry is consumed and changes its own setting only. -/
theorem loadStep_valid (g : Globals K) (e : Entry) (rest : List String) (err : Option PyErr) {v : Val K}
    (h : e.value toRad parse = some v) :
    ∃ g' : Globals K, loadStep toRad parse g (e.tokens ++ rest, err) = .next g' (rest, err) ∧
      g'.get = Function.update g.get e.key v := by
  obtain ⟨k, args⟩ := e
  unfold Entry.value at h
  simp only at h
  split at h
  · rename_i s
    split_ifs at h with hk
    cases h
    cases k <;> simp [Key.isText] at hk <;>
      refine ⟨_, by simp [Entry.tokens, Key.keyword, loadStep, getToken, assign]; rfl, ?_⟩ <;>
      funext k <;> cases k <;> simp [Globals.get, Function.update]
  · rename_i s u
    split at h
    · rename_i x f hx hu
      split_ifs at h with hk ha
      · cases h
        cases k <;> simp [Key.isAngle] at ha
        · refine ⟨_, by
            simp [Entry.tokens, Key.keyword, loadStep, getToken,
              getLongitude_ok toRad parse rest err hx hu, assign]; rfl, ?_⟩
          funext k; cases k <;> simp [Globals.get, Function.update]
        · refine ⟨_, by
            simp [Entry.tokens, Key.keyword, loadStep, getToken,
              getLatitude_ok toRad parse rest err hx hu, assign]; rfl, ?_⟩
          funext k; cases k <;> simp [Globals.get, Function.update]
      · cases h
        cases k <;> simp [Key.isText] at hk <;> simp [Key.isAngle] at ha
        · refine ⟨_, by
            simp [Entry.tokens, Key.keyword, loadStep, getToken,
              getOffset_ok parse rest err hx hu, assign]; rfl, ?_⟩
          funext k; cases k <;> simp [Globals.get, Function.update]
        · refine ⟨_, by
            simp [Entry.tokens, Key.keyword, loadStep, getToken,
              getOffset_ok parse rest err hx hu, assign]; rfl, ?_⟩
          funext k; cases k <;> simp [Globals.get, Function.update]
    · cases h
  · cases h

theorem settings_cons (before : Key → Val K) (e : Entry) (es : List Entry) {v : Val K}
    (h : e.value toRad parse = some v) :
    settings toRad parse before (e :: es) =
      settings toRad parse (Function.update before e.key v) es := by
  funext k
  unfold settings
  rw [List.reverse_cons, List.find?_append]
  rcases hf : es.reverse.find? (fun e => e.key = k) with _ | e'
  · by_cases hk : e.key = k
    · subst hk; simp [h, hf]
    · simp [hk, hf, Function.update, Ne.symm hk]
  · simp [hf]

/-- A file that begins with valid entries: they are processed one after the other. -/
theorem loadTokens_entries (g : Globals K) (es : List Entry) (rest : List String)
    (err : Option PyErr) (h : ∀ e ∈ es, e.Valid toRad parse) :
    ∃ g' : Globals K, g'.get = settings toRad parse g.get es ∧
      loadTokens toRad parse g (es.flatMap Entry.tokens ++ rest, err)
        = loadTokens toRad parse g' (rest, err) := by
  induction es generalizing g with
  | nil => exact ⟨g, rfl, rfl⟩
  | cons e es ih =>
    obtain ⟨v, hv⟩ := Option.isSome_iff_exists.mp (h e (by simp))
    obtain ⟨g1, h1, h2⟩ := loadStep_valid toRad parse g e (es.flatMap Entry.tokens ++ rest) err hv
    obtain ⟨g', h3, h4⟩ := ih g1 (fun e' he' => h e' (by simp [he']))
    refine ⟨g', ?_, ?_⟩
    · rw [h3, h2, settings_cons toRad parse _ _ _ hv]
    · rw [List.flatMap_cons, List.append_assoc, loadTokens_eq, h1]
      exact h4

/-- C30: a file of valid entries is accepted, and afterwards every setting has the value of its last
entry, or its former value if it has none. -/
theorem load_params_assigns (g : Globals K) (es : List Entry) (h : ∀ e ∈ es, e.Valid toRad parse) :
    ∃ g', loadTokens toRad parse g (es.flatMap Entry.tokens, none) = (g', .ok ()) ∧
      g'.get = settings toRad parse g.get es := by
  obtain ⟨g', h1, h2⟩ := loadTokens_entries toRad parse g es [] none h
  refine ⟨g', ?_, h1⟩
  rw [List.append_nil] at h2
  rw [h2, loadTokens_eq]
  simp [loadStep, getToken]

/-- C30: loading the same file twice is the same as loading it once. -/
theorem load_params_idempotent (g : Globals K) (es : List Entry)
    (h : ∀ e ∈ es, e.Valid toRad parse) :
    let once := (loadTokens toRad parse g (es.flatMap Entry.tokens, none)).1
    (loadTokens toRad parse once (es.flatMap Entry.tokens, none)).1 = once := by
  obtain ⟨g1, h1, h2⟩ := load_params_assigns toRad parse g es h
  obtain ⟨g2, h3, h4⟩ := load_params_assigns toRad parse g1 es h
  simp only [h1, h3]
  apply Globals.get_injective
  rw [h4, h2]
  funext k
  unfold settings
  split <;> rfl

/-- C30: two neighbouring entries for different settings may be exchanged anywhere in a file. -/
theorem load_params_swap (g : Globals K) (es fs : List Entry) (a b : Entry)
    (h : ∀ e ∈ es ++ a :: b :: fs, e.Valid toRad parse) (hab : a.key ≠ b.key) :
    loadTokens toRad parse g ((es ++ a :: b :: fs).flatMap Entry.tokens, none)
      = loadTokens toRad parse g ((es ++ b :: a :: fs).flatMap Entry.tokens, none) := by
  obtain ⟨g1, h1, h2⟩ := load_params_assigns toRad parse g _ h
  obtain ⟨g2, h3, h4⟩ := load_params_assigns toRad parse g (es ++ b :: a :: fs) (fun e he => h e (by
    simp only [List.mem_append, List.mem_cons] at he ⊢; tauto))
  rw [h1, h3]
  congr 1
  apply Globals.get_injective
  rw [h2, h4]
  funext k
  unfold settings
  simp only [List.reverse_append, List.reverse_cons, List.find?_append, List.append_assoc]
  by_cases ha : a.key = k
  · have hb : ¬ b.key = k := fun hb => hab (ha.trans hb.symm)
    simp [ha, hb]
  · simp [ha]

/-! ### C31 -/

/-- The argument in position `i` after a keyword, when `rest` are the remaining tokens: at the end of
the file the empty string, or the lexical error. -/
def Spec.arg (rest : List String) (err : Option PyErr) (i : ℕ) : Except PyErr String :=
  match rest[i]?, err with
  | some s, _ => .ok s
  | none, none => .ok ""
  | none, some e => .error e

/-- The message for a bad unit or direction. -/
def Spec.Key.unitMessage : Key → String
  | .longitude => "longitude direction must be \"west\" or \"east\""
  | .latitude => "latitude direction must be \"north\" or \"south\""
  | _ => "bad value for standard_timezone_offset units"

/-- What makes the entry at the head of `rest` fail, and the exception. -/
inductive Spec.Fault : List String → Option PyErr → PyErr → Prop where
  /-- The text cannot be split into tokens. -/
  | lexical (e) : Fault [] (some e) e
  /-- The token is not a keyword. -/
  | unknown (t rest err) (h0 : t ≠ "") (h : ∀ k : Key, t ≠ k.keyword) : Fault (t :: rest) err
      (.Error "util" "unknown token {token} at line {lex.lineno} in param file")
  /-- The arguments cannot be split into tokens. -/
  | text (k : Key) (rest err e) (h : arg rest err 0 = .error e) : Fault (k.keyword :: rest) err e
  | number (k : Key) (rest err a x e) (hk : k.isText = false) (h0 : arg rest err 0 = .ok a)
      (hx : parse a = some x) (h : arg rest err 1 = .error e) : Fault (k.keyword :: rest) err e
  /-- The first argument is not a number. -/
  | notNumber (k : Key) (rest err a) (hk : k.isText = false) (h0 : arg rest err 0 = .ok a)
      (hx : parse a = none) :
      Fault (k.keyword :: rest) err (.ValueError "could not convert string to float")
  /-- The second argument is not a unit or direction. -/
  | badUnit (k : Key) (rest err a x u) (hk : k.isText = false) (h0 : arg rest err 0 = .ok a)
      (hx : parse a = some x) (h1 : arg rest err 1 = .ok u)
      (hu : (k.units (K := K)).lookup u.toLower = none) :
      Fault (k.keyword :: rest) err (.Error "util" k.unitMessage)

theorem getToken_arg (rest : List String) (err : Option PyErr) :
    getToken (rest, err) = match Spec.arg rest err 0 with
      | .ok s => .ok (s, (rest.tail, err))
      | .error e => .error e := by
  rcases rest with _ | ⟨a, l⟩ <;> rcases err with _ | e <;> rfl

theorem arg_tail (rest : List String) (err : Option PyErr) :
    Spec.arg rest.tail err 0 = Spec.arg rest err 1 := by
  rcases rest with _ | ⟨a, l⟩ <;> rfl

theorem getFloat_arg (rest : List String) (err : Option PyErr) :
    getFloat parse (rest, err) = match Spec.arg rest err 0 with
      | .error e => .error e
      | .ok s => match parse s with
        | none => .error (.ValueError "could not convert string to float")
        | some x => .ok (x, (rest.tail, err)) := by
  unfold getFloat
  rw [getToken_arg]
  rcases Spec.arg rest err 0 with e | s
  · rfl
  · simp only [bind, Except.bind]
    rcases parse s <;> rfl

theorem getToken_cons (t : String) (ts : List String) (err : Option PyErr) :
    getToken (t :: ts, err) = .ok (t, (ts, err)) := rfl

theorem getOffset_bad {rest : List String} {err : Option PyErr} {a u : String} {x : K}
    (h0 : Spec.arg rest err 0 = .ok a) (hx : parse a = some x) (h1 : Spec.arg rest err 1 = .ok u)
    (hu : (Key.standardOffset.units (K := K)).lookup u.toLower = none) :
    getOffset parse (rest, err) =
      .error (.Error "util" "bad value for standard_timezone_offset units") := by
  have hn := offset_units_none hu
  unfold getOffset
  rw [getFloat_arg, h0]
  simp only [hx, bind, Except.bind]
  rw [getToken_arg, arg_tail, h1]
  simp only []
  rw [if_pos hn]

theorem getLongitude_bad {rest : List String} {err : Option PyErr} {a u : String} {x : K}
    (h0 : Spec.arg rest err 0 = .ok a) (hx : parse a = some x) (h1 : Spec.arg rest err 1 = .ok u)
    (hu : (Key.longitude.units (K := K)).lookup u.toLower = none) :
    getLongitude toRad parse (rest, err) =
      .error (.Error "util" "longitude direction must be \"west\" or \"east\"") := by
  have hn : u.toLower ∉ ["east", "west"] := by
    intro h
    simp only [List.mem_cons, List.not_mem_nil, or_false] at h
    rcases h with h | h <;> rw [h] at hu <;> simp [Key.units, List.lookup] at hu
  unfold getLongitude
  rw [getFloat_arg, h0]
  simp only [hx, bind, Except.bind]
  rw [getToken_arg, arg_tail, h1]
  simp only []
  rw [if_pos hn]

theorem getLatitude_bad {rest : List String} {err : Option PyErr} {a u : String} {x : K}
    (h0 : Spec.arg rest err 0 = .ok a) (hx : parse a = some x) (h1 : Spec.arg rest err 1 = .ok u)
    (hu : (Key.latitude.units (K := K)).lookup u.toLower = none) :
    getLatitude toRad parse (rest, err) =
      .error (.Error "util" "latitude direction must be \"north\" or \"south\"") := by
  have hn : u.toLower ∉ ["north", "south"] := by
    intro h
    simp only [List.mem_cons, List.not_mem_nil, or_false] at h
    rcases h with h | h <;> rw [h] at hu <;> simp [Key.units, List.lookup] at hu
  unfold getLatitude
  rw [getFloat_arg, h0]
  simp only [hx, bind, Except.bind]
  rw [getToken_arg, arg_tail, h1]
  simp only []
  rw [if_pos hn]

/-- A faulty entry raises its exception and assigns nothing. -/
theorem loadStep_fault (g : Globals K) {rest : List String} {err : Option PyErr} {e : PyErr}
    (h : Fault parse rest err e) : loadStep toRad parse g (rest, err) = .raise g e := by
  cases h with
  | lexical => rfl
  | unknown t rest _ h0 h =>
    have h1 := h .standardName
    have h2 := h .standardOffset
    have h3 := h .daylightName
    have h4 := h .daylightOffset
    have h5 := h .longitude
    have h6 := h .latitude
    have h7 := h .textPath
    have h8 := h .binaryPath
    simp only [Key.keyword] at h1 h2 h3 h4 h5 h6 h7 h8
    rw [loadStep, getToken_cons]
    simp only []
    rw [if_neg h0, if_neg h1, if_neg h2, if_neg h3, if_neg h4, if_neg h5, if_neg h6, if_neg h7,
      if_neg h8]
  | text k rest _ _ h =>
    cases k <;> rw [loadStep, getToken_cons] <;>
      simp [Key.keyword, getOffset, getLongitude, getLatitude,
        getToken_arg, getFloat_arg, h, assign, bind, Except.bind]
  | number k rest _ a x _ hk h0 hx h =>
    cases k <;> simp only [Key.isText, reduceCtorEq] at hk <;> rw [loadStep, getToken_cons] <;>
      simp [Key.keyword, getOffset, getLongitude, getLatitude,
        getToken_arg, getFloat_arg, arg_tail, h0, hx, h, assign, bind, Except.bind]
  | notNumber k rest _ a hk h0 hx =>
    cases k <;> simp only [Key.isText, reduceCtorEq] at hk <;> rw [loadStep, getToken_cons] <;>
      simp [Key.keyword, getOffset, getLongitude, getLatitude,
        getToken_arg, getFloat_arg, h0, hx, assign, bind, Except.bind]
  | badUnit k rest _ a x u hk h0 hx h1 hu =>
    cases k <;> simp only [Key.isText, reduceCtorEq] at hk <;> rw [loadStep, getToken_cons]
    · simp [Key.keyword, getOffset_bad parse h0 hx h1 hu, assign, Key.unitMessage]
    · simp [Key.keyword, getOffset_bad parse h0 hx h1 hu, assign, Key.unitMessage]
    · simp [Key.keyword, getLongitude_bad toRad parse h0 hx h1 hu, assign, Key.unitMessage]
    · simp [Key.keyword, getLatitude_bad toRad parse h0 hx h1 hu, assign, Key.unitMessage]

/-- C31: after valid entries, a faulty one raises its exception; the settings of the valid entries
stay, and neither the faulty entry nor anything after it has an effect. -/
theorem load_params_fault (g : Globals K) (es : List Entry) (rest : List String)
    (err : Option PyErr) (h : ∀ e ∈ es, e.Valid toRad parse) {e : PyErr}
    (hf : Fault parse rest err e) :
    ∃ g', loadTokens toRad parse g (es.flatMap Entry.tokens ++ rest, err) = (g', .error e) ∧
      g'.get = settings toRad parse g.get es := by
  obtain ⟨g', h1, h2⟩ := loadTokens_entries toRad parse g es rest err h
  refine ⟨g', ?_, h1⟩
  rw [h2, loadTokens_eq, loadStep_fault toRad parse g' hf]

/-- C31: a keyword for a text at the very end of the file is accepted and gives the empty text. -/
theorem load_params_missing_text (g : Globals K) (es : List Entry) (k : Key) (hk : k.isText = true)
    (h : ∀ e ∈ es, e.Valid toRad parse) :
    ∃ g', loadTokens toRad parse g (es.flatMap Entry.tokens ++ [k.keyword], none) = (g', .ok ()) ∧
      g'.get = settings toRad parse g.get (es ++ [⟨k, [""]⟩]) := by
  obtain ⟨g1, h1, h2⟩ := loadTokens_entries toRad parse g es [k.keyword] none h
  obtain ⟨g', h3, h4⟩ := loadStep_valid toRad parse g1 ⟨k, [""]⟩ [] none (v := .text "")
    (by simp [Entry.value, hk])
  have h5 : loadStep toRad parse g1 ([k.keyword], none) = .next g' ([], none) := by
    rw [← h3]
    cases k <;> simp [Key.isText] at hk <;> rfl
  refine ⟨g', ?_, ?_⟩
  · rw [h2, loadTokens_eq, h5]
    simp only []
    rw [loadTokens_eq]; rfl
  · rw [h4, h1]
    funext j
    unfold settings
    rw [List.reverse_append]
    by_cases hj : k = j
    · subst hj
      simp [Entry.value, hk]
    · simp [hj, Function.update, Ne.symm hj]

/-- C30, C31: there is no other case.  Every token stream without empty tokens starts with valid
entries followed by nothing, by a final keyword for a text, or by a faulty entry; the theorems
`load_params_assigns`, `load_params_missing_text` and `load_params_fault` describe the result. -/
theorem load_params_cases (ts : List String) (err : Option PyErr) (ht : "" ∉ ts) :
    ∃ (es : List Entry) (rest : List String), ts = es.flatMap Entry.tokens ++ rest ∧
      (∀ e ∈ es, e.Valid toRad parse) ∧
      (rest = [] ∧ err = none ∨ (∃ k : Key, k.isText = true ∧ rest = [k.keyword] ∧ err = none) ∨
        ∃ e, Fault parse rest err e) := by
  induction hn : ts.length using Nat.strong_induction_on generalizing ts with
  | _ n ih =>
  have cont : ∀ (e : Entry) (rest : List String), ts = e.tokens ++ rest → e.Valid toRad parse →
      ∃ (es : List Entry) (rest : List String), ts = es.flatMap Entry.tokens ++ rest ∧
      (∀ e ∈ es, e.Valid toRad parse) ∧
      (rest = [] ∧ err = none ∨ (∃ k : Key, k.isText = true ∧ rest = [k.keyword] ∧ err = none) ∨
        ∃ e, Fault parse rest err e) := by
    intro e rest h1 h2
    obtain ⟨es, r, a1, a2, a3⟩ := ih rest.length
      (by rw [← hn, h1]; simp [Entry.tokens]) rest
      (fun h => ht (by rw [h1]; simp [h])) rfl
    refine ⟨e :: es, r, by rw [h1, a1]; simp, ?_, a3⟩
    intro e' he'
    rcases List.mem_cons.mp he' with rfl | he'
    · exact h2
    · exact a2 e' he'
  have stop : ((ts = [] ∧ err = none) ∨ (∃ k : Key, k.isText = true ∧ ts = [k.keyword] ∧ err = none) ∨
        ∃ e, Fault parse ts err e) →
      ∃ (es : List Entry) (rest : List String), ts = es.flatMap Entry.tokens ++ rest ∧
      (∀ e ∈ es, e.Valid toRad parse) ∧
      (rest = [] ∧ err = none ∨ (∃ k : Key, k.isText = true ∧ rest = [k.keyword] ∧ err = none) ∨
        ∃ e, Fault parse rest err e) := fun h => ⟨[], ts, by simp, by simp, h⟩
  rcases ts with _ | ⟨t, rest⟩
  · rcases err with _ | e
    · exact stop (.inl ⟨rfl, rfl⟩)
    · exact stop (.inr (.inr ⟨e, .lexical e⟩))
  by_cases hk : ∃ k : Key, t = k.keyword
  · obtain ⟨k, rfl⟩ := hk
    rcases h0 : Spec.arg rest err 0 with e | a
    · exact stop (.inr (.inr ⟨e, .text k rest err e h0⟩))
    by_cases htext : k.isText = true
    · rcases rest with _ | ⟨a', rest⟩
      · rcases err with _ | e
        · exact stop (.inr (.inl ⟨k, htext, rfl, rfl⟩))
        · cases h0
      · exact cont ⟨k, [a']⟩ rest (by simp [Entry.tokens]) (by simp [Entry.Valid, Entry.value, htext])
    · rw [Bool.not_eq_true] at htext
      rcases hx : parse a with _ | x
      · exact stop (.inr (.inr ⟨_, .notNumber k rest err a htext h0 hx⟩))
      rcases h1 : Spec.arg rest err 1 with e | u
      · exact stop (.inr (.inr ⟨e, .number k rest err a x e htext h0 hx h1⟩))
      rcases hu : (k.units (K := K)).lookup u.toLower with _ | f
      · exact stop (.inr (.inr ⟨_, .badUnit k rest err a x u htext h0 hx h1 hu⟩))
      · have hu0 : u ≠ "" := by
          rintro rfl
          rw [show "".toLower = "" by decide +kernel] at hu
          cases k <;> simp [Key.units, List.lookup] at hu
        rcases rest with _ | ⟨a', _ | ⟨u', rest⟩⟩
        · rcases err with _ | e
          · cases h1; exact absurd rfl hu0
          · cases h1
        · rcases err with _ | e
          · cases h1; exact absurd rfl hu0
          · cases h1
        · cases h0
          cases h1
          exact cont ⟨k, [a, u]⟩ rest (by simp [Entry.tokens])
            (by simp [Entry.Valid, Entry.value, htext, hx, hu])
  · exact stop (.inr (.inr ⟨_, .unknown t rest err (fun h => ht (by simp [h])) (fun k h => hk ⟨k, h⟩)⟩))

end

/-- The theorems are used with the reals and `d_to_r`. -/
noncomputable example (parse : String → Option ℝ) (h : parse "5" = some 5) :
    ∃ g', loadTokens dToR parse {} (["standard_timezone_offset", "5", "hours"], none) = (g', .ok ()) ∧
      g'.get .standardOffset = .num (5 * (1 / 24)) := by
  have hu : "hours".toLower = "hours" := by decide +kernel
  obtain ⟨g', h1, h2⟩ := load_params_assigns dToR parse {} [⟨.standardOffset, ["5", "hours"]⟩] (by
    simp [Entry.Valid, Entry.value, h, hu, Key.units, List.lookup, Key.isText])
  refine ⟨g', h1, ?_⟩
  rw [h2]
  simp [settings, Entry.value, h, hu, Key.units, List.lookup, Key.isText, Key.isAngle]

/-! ### C60: the lexer -/

/-- The characters of a word: those of `shlex.shlex` and the dots, dashes, slashes and colons that the
comment in `util.py` 289 promises. -/
def Spec.wordChars : List Char :=
  "abcdefghijklmnopqrstuvwxyzABCDEFGHIJKLMNOPQRSTUVWXYZ0123456789_.-/\\:".toList

/-- White space. -/
def Spec.blanks : List Char := [' ', '\t', '\r', '\n']

/-- Quotation marks. -/
def Spec.quoteMarks : List Char := ['\'', '"']

/-- A word: a non-empty text of word characters. -/
def Spec.IsWord (w : List Char) : Prop := w ≠ [] ∧ ∀ c ∈ w, c ∈ Spec.wordChars

/-- A gap between two words: white space and comments that start after white space. -/
inductive Spec.Gap : List Char → Prop where
  | space (c : Char) (h : c ∈ Spec.blanks) : Gap [c]
  | more (c : Char) (h : c ∈ Spec.blanks) (l) : Gap l → Gap (l ++ [c])
  | comment (l t : List Char) (ht : '\n' ∉ t) : Gap l → Gap (l ++ '#' :: t ++ ['\n'])

theorem wordChar_iff (c : Char) : isWordChar c = true ↔ c ∈ Spec.wordChars := by
  constructor
  · intro h
    have hc : c = Char.ofNat c.toNat := (Char.ofNat_toNat c).symm
    have hn : c.toNat < 128 := by
      by_contra hn
      push Not at hn
      simp only [isWordChar, Char.isAlphanum, Char.isAlpha, Char.isUpper, Char.isLower, Char.isDigit,
        Bool.or_eq_true, Bool.and_eq_true, decide_eq_true_eq, beq_iff_eq, UInt32.le_iff_toNat_le,
        ge_iff_le] at h
      change 128 ≤ c.val.toNat at hn
      rcases h with ((((((((h | h) | h) | rfl) | rfl) | rfl) | rfl) | rfl) | rfl)
      · exact absurd (le_trans hn h.2) (by decide)
      · exact absurd (le_trans hn h.2) (by decide)
      · exact absurd (le_trans hn h.2) (by decide)
      all_goals exact absurd hn (by decide)
    have key : ∀ n < 128, isWordChar (Char.ofNat n) = true → Char.ofNat n ∈ Spec.wordChars := by
      decide +kernel
    rw [hc] at h ⊢
    exact key _ hn h
  · have key : ∀ c ∈ Spec.wordChars, isWordChar c = true := by decide +kernel
    exact key c

theorem lexSpace_iff (c : Char) : isLexSpace c = true ↔ c ∈ Spec.blanks := by
  simp [isLexSpace, Spec.blanks, or_assoc]

theorem lexQuote_iff (c : Char) : isLexQuote c = true ↔ c ∈ Spec.quoteMarks := by
  simp [isLexQuote, Spec.quoteMarks]

theorem Spec.IsWord.chars {w : List Char} (h : IsWord w) : ∀ c ∈ w, isWordChar c = true :=
  fun c hc => (wordChar_iff c).mpr (h.2 c hc)

theorem wordChar_facts {c : Char} (h : isWordChar c = true) :
    isLexSpace c = false ∧ c ≠ '#' ∧ isLexQuote c = false := by
  refine ⟨?_, ?_, ?_⟩
  · by_contra hc
    simp only [isLexSpace, Bool.not_eq_false, Bool.or_eq_true, beq_iff_eq] at hc
    rcases hc with ((rfl | rfl) | rfl) | rfl <;> revert h <;> decide
  · rintro rfl; revert h; decide
  · by_contra hc
    simp only [isLexQuote, Bool.not_eq_false, Bool.or_eq_true, beq_iff_eq] at hc
    rcases hc with rfl | rfl <;> revert h <;> decide

theorem space_facts {c : Char} (h : isLexSpace c = true) :
    isWordChar c = false ∧ c ≠ '#' ∧ isLexQuote c = false := by
  simp only [isLexSpace, Bool.or_eq_true, beq_iff_eq] at h
  rcases h with ((rfl | rfl) | rfl) | rfl <;> decide

theorem lexGo_word (t w cs : List Char) (h : ∀ c ∈ w, isWordChar c = true) :
    lexGo (.word t) (w ++ cs) = lexGo (.word (t ++ w)) cs := by
  induction w generalizing t with
  | nil => simp
  | cons c w ih =>
    have hc := h c (by simp)
    obtain ⟨h1, h2, h3⟩ := wordChar_facts hc
    rw [List.cons_append, lexGo, h1, if_neg (by simp), if_neg h2, hc, Bool.true_or, if_pos rfl,
      ih _ (fun c' hc' => h c' (by simp [hc']))]
    simp

theorem lexGo_space_word (w cs : List Char) (h : IsWord w) :
    lexGo .space (w ++ cs) = lexGo (.word w) cs := by
  obtain ⟨h0, h⟩ := And.intro h.1 h.chars
  obtain ⟨c, w, rfl⟩ := List.exists_cons_of_ne_nil h0
  have hc := h c (by simp)
  obtain ⟨h1, h2, h3⟩ := wordChar_facts hc
  rw [List.cons_append, lexGo, h1, if_neg (by simp), if_neg h2, hc, if_pos rfl]
  exact lexGo_word [c] w cs (fun c' hc' => h c' (by simp [hc']))

theorem lexGo_comment (t cs : List Char) (b : Option (List Char)) (ht : '\n' ∉ t) :
    lexGo (.comment b) (t ++ '\n' :: cs) = match b with
      | none => lexGo .space cs
      | some w => lexGo (.word w) cs := by
  induction t with
  | nil => cases b <;> simp [lexGo]
  | cons c t ih =>
    have hc : c ≠ '\n' := fun h => ht (by simp [h])
    have := ih (fun h => ht (by simp [h]))
    cases b <;> simp only [List.cons_append, lexGo, if_neg hc] <;> exact this

theorem lexGo_space_gap {l : List Char} (h : Gap l) (cs : List Char) :
    lexGo .space (l ++ cs) = lexGo .space cs := by
  induction h generalizing cs with
  | space c h => simp [lexGo, (lexSpace_iff c).mpr h]
  | more c h l _ ih => rw [List.append_assoc, ih]; simp [lexGo, (lexSpace_iff c).mpr h]
  | comment l t ht _ ih =>
    rw [List.append_assoc, List.append_assoc, ih]
    rw [List.cons_append, lexGo, if_neg (by decide), if_pos rfl]
    exact lexGo_comment t cs none ht

theorem lexGo_word_gap {l : List Char} (h : Gap l) (w cs : List Char) :
    lexGo (.word w) (l ++ cs) =
      (String.ofList w :: (lexGo .space cs).1, (lexGo .space cs).2) := by
  induction h generalizing cs with
  | space c h => simp [lexGo, (lexSpace_iff c).mpr h]
  | more c h l _ ih => rw [List.append_assoc, ih]; simp [lexGo, (lexSpace_iff c).mpr h]
  | comment l t ht _ ih =>
    rw [List.append_assoc, List.append_assoc, ih]
    have : lexGo .space (('#' :: t) ++ (['\n'] ++ cs)) = lexGo .space cs := by
      rw [List.cons_append, lexGo, if_neg (by decide), if_pos rfl]
      exact lexGo_comment t cs none ht
    rw [this]

/-- A file that begins with words separated by gaps: the words, then the tokens of the rest. -/
theorem lexGo_words_rest (lead : List Char) (ws : List (List Char × List Char)) (cs : List Char)
    (hl : lead = [] ∨ Gap lead) (h : ∀ p ∈ ws, IsWord p.1 ∧ Gap p.2) :
    lexGo .space (lead ++ ws.flatMap (fun p => p.1 ++ p.2) ++ cs) =
      (ws.map (fun p => String.ofList p.1) ++ (lexGo .space cs).1, (lexGo .space cs).2) := by
  have key : lexGo .space (ws.flatMap (fun p => p.1 ++ p.2) ++ cs) =
      (ws.map (fun p => String.ofList p.1) ++ (lexGo .space cs).1, (lexGo .space cs).2) := by
    clear hl
    induction ws with
    | nil => rfl
    | cons p ws ih =>
      obtain ⟨h1, h2⟩ := h p (by simp)
      rw [List.flatMap_cons, List.append_assoc, List.append_assoc, lexGo_space_word _ _ h1,
        lexGo_word_gap h2, ih (fun q hq => h q (by simp [hq]))]
      rfl
  rw [List.append_assoc]
  rcases hl with rfl | hl
  · exact key
  · rw [lexGo_space_gap hl, key]

/-- C60: a file made of words separated by white space and comments, where every comment is preceded
by white space, gives exactly its words. -/
theorem lex_words (lead : List Char) (ws : List (List Char × List Char))
    (hl : lead = [] ∨ Gap lead) (h : ∀ p ∈ ws, IsWord p.1 ∧ Gap p.2) :
    lexGo .space (lead ++ ws.flatMap (fun p => p.1 ++ p.2)) =
      (ws.map (fun p => String.ofList p.1), none) := by
  have := lexGo_words_rest lead ws [] hl h
  simpa [lexGo] using this

theorem quote_facts {q : Char} (h : q ∈ Spec.quoteMarks) :
    isLexSpace q = false ∧ q ≠ '#' ∧ isWordChar q = false ∧ isLexQuote q = true := by
  simp only [Spec.quoteMarks, List.mem_cons, List.not_mem_nil, or_false] at h
  rcases h with rfl | rfl <;> decide

theorem lexGo_quote (q : Char) (t body cs : List Char) (hb : q ∉ body) :
    lexGo (.quote q t) (body ++ cs) = lexGo (.quote q (t ++ body)) cs := by
  induction body generalizing t with
  | nil => simp
  | cons c body ih =>
    have hc : c ≠ q := fun h => hb (by simp [h])
    rw [List.cons_append, lexGo, if_neg hc, ih _ (fun h => hb (by simp [h]))]
    simp

/-- C60: a quoted text, which may contain blanks and `#`, is one token; the quotation marks are part
of the token.  It may follow words and gaps, and any text may follow it. -/
theorem lex_quoted (lead : List Char) (ws : List (List Char × List Char)) (q : Char)
    (body cs : List Char) (hl : lead = [] ∨ Gap lead) (h : ∀ p ∈ ws, IsWord p.1 ∧ Gap p.2)
    (hq : q ∈ Spec.quoteMarks) (hb : q ∉ body) :
    lexGo .space (lead ++ ws.flatMap (fun p => p.1 ++ p.2) ++ (q :: body ++ q :: cs)) =
      (ws.map (fun p => String.ofList p.1) ++ String.ofList (q :: body ++ [q]) ::
        (lexGo .space cs).1, (lexGo .space cs).2) := by
  obtain ⟨h1, h2, h3, h4⟩ := quote_facts hq
  have e : lexGo .space (q :: body ++ q :: cs) =
      (String.ofList (q :: body ++ [q]) :: (lexGo .space cs).1, (lexGo .space cs).2) := by
    rw [List.cons_append, lexGo, h1, if_neg (by simp), if_neg h2, h3, if_neg (by simp), h4,
      if_pos rfl, lexGo_quote _ _ _ _ hb, lexGo, if_pos rfl]
    simp
  rw [lexGo_words_rest _ _ _ hl h, e]

/-- C60: a quotation that is not closed raises `ValueError`, behind whatever words stand before it. -/
theorem lex_unclosed_quote (lead : List Char) (ws : List (List Char × List Char)) (q : Char)
    (body : List Char) (hl : lead = [] ∨ Gap lead) (h : ∀ p ∈ ws, IsWord p.1 ∧ Gap p.2)
    (hq : q ∈ Spec.quoteMarks) (hb : q ∉ body) :
    lexGo .space (lead ++ ws.flatMap (fun p => p.1 ++ p.2) ++ q :: body) =
      (ws.map (fun p => String.ofList p.1), some (.ValueError "No closing quotation")) := by
  obtain ⟨h1, h2, h3, h4⟩ := quote_facts hq
  have e : lexGo .space (q :: body) = ([], some (.ValueError "No closing quotation")) := by
    rw [lexGo, h1, if_neg (by simp), if_neg h2, h3, if_neg (by simp), h4, if_pos rfl]
    have := lexGo_quote q [q] body [] hb
    rw [List.append_nil] at this
    rw [this, lexGo]
  rw [lexGo_words_rest _ _ _ hl h, e, List.append_nil]

/-- C60: `load_params` of a file of valid entries followed by a quotation that is not closed raises
`ValueError` after the entries have been assigned. -/
theorem load_params_unclosed_quote {K : Type} [Field K] (toRad : K → K) (parse : String → Option K)
    (g : Globals K) (es : List Entry) (he : ∀ e ∈ es, e.Valid toRad parse) (text : String)
    (lead : List Char) (ws : List (List Char × List Char)) (q : Char) (body : List Char)
    (hl : lead = [] ∨ Gap lead) (h : ∀ p ∈ ws, IsWord p.1 ∧ Gap p.2) (hq : q ∈ Spec.quoteMarks)
    (hb : q ∉ body) (hw : ws.map (fun p => String.ofList p.1) = es.flatMap Entry.tokens)
    (ht : text.toList = lead ++ ws.flatMap (fun p => p.1 ++ p.2) ++ q :: body) :
    ∃ g', loadTokens toRad parse g (lexFile text) =
        (g', .error (.ValueError "No closing quotation")) ∧
      g'.get = settings toRad parse g.get es := by
  obtain ⟨g', h1, h2⟩ := loadTokens_entries toRad parse g es []
    (some (.ValueError "No closing quotation")) he
  refine ⟨g', ?_, h1⟩
  rw [List.append_nil] at h2
  rw [lexFile, ht, lex_unclosed_quote _ _ _ _ hl h hq hb, hw, h2, loadTokens_eq]
  rfl

/-- The hypotheses are met: a path with a drive letter is one word; a quoted path is one token; and
a quote that is left open raises. -/
example : lexFile "vsop87d_text_path C:\\data/vsop-87.txt\n" =
    (["vsop87d_text_path", "C:\\data/vsop-87.txt"], none) := by
  have := lex_words [] [("vsop87d_text_path".toList, [' ']), ("C:\\data/vsop-87.txt".toList, ['\n'])]
    (Or.inl rfl) (by
      have b : ∀ c ∈ Spec.blanks, Gap [c] := fun c h => .space c h
      intro p hp
      simp only [List.mem_cons, List.not_mem_nil, or_false] at hp
      rcases hp with rfl | rfl
      · exact ⟨⟨by decide, by decide +kernel⟩, b _ (by decide)⟩
      · exact ⟨⟨by decide, by decide +kernel⟩, b _ (by decide)⟩)
  exact this

example : lexFile "standard_timezone_name \"Eastern # Standard\" 5" =
    (["standard_timezone_name", "\"Eastern # Standard\"", "5"], none) := by decide +kernel

example : lexFile "latitude 43 'north\n" =
    (["latitude", "43"], some (.ValueError "No closing quotation")) := by decide +kernel

/-- C60 fails without the white space: a comment directly behind a word joins that word with the
first word of the next line. -/
theorem lex_comment_joins (w t v cs : List Char) (hw : IsWord w) (ht : '\n' ∉ t) (hv : IsWord v) :
    lexGo .space (w ++ '#' :: t ++ '\n' :: v ++ cs) = lexGo .space (w ++ v ++ cs) := by
  have e1 : w ++ '#' :: t ++ '\n' :: v ++ cs = w ++ ('#' :: (t ++ '\n' :: (v ++ cs))) := by simp
  rw [e1, lexGo_space_word _ _ hw, List.append_assoc, lexGo_space_word _ _ hw, lexGo_word _ _ _ hv.chars]
  rw [lexGo, if_neg (by decide), if_pos rfl, lexGo_comment _ _ _ ht]
  exact lexGo_word _ _ _ hv.chars

/-- Hence `5 hours# comment` followed by `latitude` on the next line reads the unit as
`hourslatitude` ... -/
theorem lex_comment_example : lexFile "standard_timezone_offset 5 hours# west\nlatitude 43 north\n" =
    (["standard_timezone_offset", "5", "hourslatitude", "43", "north"], none) := by decide +kernel

/-- C60: a plus sign is no word character, so `+5` is two tokens; for every reading of numbers that
refuses a lone `+`, `load_params` raises `ValueError`. -/
theorem load_params_plus_sign {K : Type} [Field K] (toRad : K → K) (parse : String → Option K)
    (g : Globals K) (h : parse "+" = none) :
    loadTokens toRad parse g (lexFile "longitude +91.7 west\n") =
      (g, .error (.ValueError "could not convert string to float")) := by
  have e : lexFile "longitude +91.7 west\n" = (["longitude", "+", "91.7", "west"], none) := by
    decide +kernel
  have e2 : loadStep toRad parse g (["longitude", "+", "91.7", "west"], none) =
      .raise g (.ValueError "could not convert string to float") :=
    loadStep_fault toRad parse g
      (.notNumber .longitude ["+", "91.7", "west"] none "+" rfl rfl h)
  rw [e, loadTokens_eq, e2]

/-- C60: no token is empty, as `load_params_cases` requires of a stream. -/
theorem lex_nonempty (text : String) : "" ∉ (lexFile text).1 := by
  have key : ∀ (cs : List Char) (m : LexMode),
      (match m with
        | .space => True | .word t => t ≠ [] | .quote _ t => t ≠ []
        | .comment none => True | .comment (some t) => t ≠ []) → "" ∉ (lexGo m cs).1 := by
    have ne : ∀ t : List Char, t ≠ [] → "" ≠ String.ofList t := by
      intro t ht h
      have := congrArg String.toList h
      simp at this
      exact ht this
    intro cs
    induction cs with
    | nil =>
      intro m hm
      rcases m with _ | t | ⟨q, t⟩ | (_ | t) <;> simp [lexGo] <;> exact hm
    | cons c cs ih =>
      intro m hm
      have is := ih .space trivial
      rcases m with _ | t | ⟨q, t⟩ | (_ | t)
      · simp only [lexGo]
        split_ifs
        · exact is
        · exact ih _ trivial
        · exact ih _ (by simp)
        · exact ih _ (by simp)
        · simp only [List.mem_cons, not_or]
          exact ⟨ne _ (by simp), is⟩
      · simp only [lexGo]
        split_ifs
        · simp only [List.mem_cons, not_or]
          exact ⟨ne _ hm, is⟩
        · exact ih _ hm
        · exact ih _ (by simp)
        · simp only [List.mem_cons, not_or]
          exact ⟨ne _ hm, ne _ (by simp), is⟩
      · simp only [lexGo]
        split_ifs
        · simp only [List.mem_cons, not_or]
          exact ⟨ne _ (by simp), is⟩
        · exact ih _ (by simp)
      · simp only [lexGo]
        split_ifs
        · exact is
        · exact ih _ trivial
      · simp only [lexGo]
        split_ifs
        · exact ih (.word t) hm
        · exact ih (.comment (some t)) hm
  exact key _ _ trivial

/-- The hypotheses are met: the text of `astronomia_params.txt`. -/
example : lexFile "#
# comments
#
standard_timezone_name            EST
standard_timezone_offset          5 hours

daylight_timezone_name            EDT
daylight_timezone_offset          4 hours

longitude                         91.7217261905 west         # 91 degrees 43' 18.21\"
latitude                          43.3673245614 north        # 43 degrees 22' 02.36\"
" = (["standard_timezone_name", "EST", "standard_timezone_offset", "5", "hours",
  "daylight_timezone_name", "EDT", "daylight_timezone_offset", "4", "hours",
  "longitude", "91.7217261905", "west", "latitude", "43.3673245614", "north"], none) := by
  decide +kernel

/-! ### C59: which file is read -/

/-- C59: the file read is the first that exists among the one named by the environment (or
`astronomia_params.txt` in the current directory), the shared one, the one in `params`, and the one
in the package; if none exists, `Error` is raised and no setting changes. -/
theorem load_params_file {K : Type} [Field K] (toRad : K → K) (parse : String → Option K)
    (read : String → Option String) (env : Option String) (share params pkg : String)
    (g : Globals K) :
    let files := [env.getD "astronomia_params.txt", share, params, pkg]
    match files.findSome? read with
    | some text => loadParams toRad parse read env share params pkg g =
        loadTokens toRad parse g (lexFile text)
    | none => ∃ msg, loadParams toRad parse read env share params pkg g =
        (g, .error (.Error "util" msg)) := by
  intro files
  unfold loadParams findParams
  simp only [files]
  generalize env.getD "astronomia_params.txt" = f0
  rcases Option.eq_none_or_eq_some (read f0) with h0 | ⟨t0, h0⟩
  · rcases Option.eq_none_or_eq_some (read share) with h1 | ⟨t1, h1⟩
    · rcases Option.eq_none_or_eq_some (read params) with h2 | ⟨t2, h2⟩
      · rcases Option.eq_none_or_eq_some (read pkg) with h3 | ⟨t3, h3⟩ <;>
          simp [List.findSome?, h0, h1, h2, h3]
      · simp [List.findSome?, h0, h1, h2]
    · simp [List.findSome?, h0, h1]
  · simp [List.findSome?, h0]

/-- C59: an environment variable that names a missing file is passed over. -/
theorem load_params_ignores_missing_env {K : Type} [Field K] (toRad : K → K)
    (parse : String → Option K) (read : String → Option String) (env share params pkg text : String)
    (g : Globals K) (h0 : read env = none) (h1 : read share = some text) :
    loadParams toRad parse read (some env) share params pkg g =
      loadTokens toRad parse g (lexFile text) := by
  have := load_params_file toRad parse read (some env) share params pkg g
  simpa [List.findSome?, h0, h1] using this

end Verif
