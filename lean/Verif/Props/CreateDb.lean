import Verif.Model.CreateDb
import Verif.Lemmas.PyInt
import Verif.Spec.VsopFile
import Mathlib.Tactic.IntervalCases

/-!
# C106: the program which makes the text database

`devutils/create_text_vsop_db.py` reads the files of the VSOP87 distribution.  With the `string.strip` of Python 2 it
prints exactly the text database (`create_text_python2`), for all files in the format of the distribution.  With
Python 3, which the rest of the program needs (`:=`), it stops at the first term (`create_text_python3`), and
never prints a term, whatever the files are (`create_text_no_term`).
-/

namespace Verif

/-! ## Columns -/

theorem columns_at {line : Line} {a : ℕ} {c : Char} (h : Columns line a a [c]) : lineAt line (a - 1) = .ok c := by
  have h0 := h.2 0 (by simp)
  simp only [Nat.add_zero, List.getElem?_cons_zero] at h0
  rw [lineAt, h0]

theorem columns_slice {line f : Line} {a b : ℕ} (ha : 1 ≤ a) (hab : a ≤ b) (h : Columns line a b f) :
    lineSlice line (a - 1) b = f := by
  obtain ⟨hl, hf⟩ := h
  apply List.ext_getElem?
  intro i
  rw [lineSlice, List.getElem?_take, List.getElem?_drop]
  by_cases hi : i < f.length
  · rw [if_pos (by omega), hf i hi]
  · rw [if_neg (by omega), List.getElem?_eq_none (by omega)]

theorem dropWhile_blanks (p : Char → Bool) (hp : p ' ' = true) (k : ℕ) (l : Line) :
    (List.replicate k ' ' ++ l).dropWhile p = l.dropWhile p := by
  induction k with
  | zero => rfl
  | succ k ih => rw [List.replicate_succ, List.cons_append, List.dropWhile_cons_of_pos hp, ih]

/-- `int` of a number at the right of a field. -/
theorem pyInt_rightIn (w n : ℕ) : pyInt (String.ofList (rightIn w (Nat.toDigits 10 n))) = .ok (n : ℤ) := by
  have h := pyInt_toString (n : ℤ)
  have e : (toString (n : ℤ)).toList = Nat.toDigits 10 n := Nat.toList_repr
  unfold pyInt at h ⊢
  rw [e] at h
  simp only [String.toList_ofList, rightIn]
  rw [dropWhile_blanks _ (by decide)]
  revert h
  simp only []
  split
  · exact id
  · intro h; cases h

theorem pyInt_digit {n : ℕ} {c : Char} (h : Nat.toDigits 10 n = [c]) :
    pyInt (String.ofList [c]) = .ok (n : ℤ) := by
  have := pyInt_rightIn 1 n
  rwa [rightIn, h] at this

theorem toDigits_single {n : ℕ} (hn : n < 10) : ∃ c, Nat.toDigits 10 n = [c] := by
  interval_cases n <;> exact ⟨_, rfl⟩

theorem numeral_not_blank {w : ℕ} {s : Line} (h : Numeral w s) : ∀ c ∈ s, isBlank c = false := by
  intro c hc
  rcases h.2.2 c hc with hd | rfl | rfl
  · obtain ⟨a1, a2, a3, a4, a5, a6, -, -, -⟩ := digit_not_blank hd
    simp [isBlank, a1, a2, a3, a4, a5, a6]
  · decide
  · decide

theorem strip2_rightIn {w : ℕ} {s : Line} (h : Numeral w s) : strip2 (rightIn w s) = s := by
  have hb := numeral_not_blank h
  rw [strip2, rightIn, dropWhile_blanks _ (by decide), strip_of_ends hb, rstrip,
    strip_of_ends (fun c hc => hb c (List.mem_reverse.mp hc)), List.reverse_reverse]

/-! ## Records -/

theorem readHeader_ok {planet : String} {name : Line} {s : Series} {line : Line} (hs : s.Ok)
    (hn : rstrip (leftIn 7 name) = planet.toList.map Char.toUpper) (h : HeaderRecord name s line) :
    readHeader planet line = .ok ((s.ic : ℤ), (s.it : ℤ), (s.terms.length : ℤ)) := by
  obtain ⟨h1, h2, h3, h4, h5⟩ := h
  obtain ⟨i1, i2, i3, -, -⟩ := hs
  obtain ⟨c, hc⟩ := toDigits_single (n := s.ic) (by omega)
  obtain ⟨d, hd⟩ := toDigits_single (n := s.it) (by omega)
  rw [hc] at h3
  rw [hd] at h4
  have e1 := columns_at h1
  have e2 := columns_slice (by norm_num) (by norm_num) h2
  have e3 := columns_at h3
  have e4 := columns_at h4
  have e5 := columns_slice (by norm_num) (by norm_num) h5
  norm_num at e1 e2 e3 e4 e5
  unfold readHeader
  rw [e1, e2, e3, e4, e5, hn]
  have p3 := pyInt_digit hc
  have p4 := pyInt_digit hd
  rw [← String.singleton_eq_ofList] at p3 p4
  have p5 := pyInt_rightIn 7 s.terms.length
  simp [bind, Except.bind, p3, p4, p5, pure, Except.pure]

/-- The beginning of a term record: up to line 135 no exception is raised. -/
theorem readTerm_eq {m : StringModule} {s : Series} {t : Line × Line × Line} {line : Line} (hs : s.Ok)
    (h : TermRecord s t line) :
    readTerm m s.ic s.it line = (do
      let A ← m.strip (rightIn 18 t.1)
      let B ← m.strip (rightIn 14 t.2.1)
      let C ← m.strip (rightIn 20 t.2.2)
      return String.ofList A ++ " " ++ String.ofList B ++ " " ++ String.ofList C) := by
  obtain ⟨h1, h3, h4, h5, h6, h7⟩ := h
  obtain ⟨i1, i2, i3, -, -⟩ := hs
  obtain ⟨c, hc⟩ := toDigits_single (n := s.ic) (by omega)
  obtain ⟨d, hd⟩ := toDigits_single (n := s.it) (by omega)
  rw [hc] at h3
  rw [hd] at h4
  have e1 := columns_at h1
  have e3 := columns_at h3
  have e4 := columns_at h4
  have e5 := columns_slice (by norm_num) (by norm_num) h5
  have e6 := columns_slice (by norm_num) (by norm_num) h6
  have e7 := columns_slice (by norm_num) (by norm_num) h7
  norm_num at e1 e3 e4 e5 e6 e7
  unfold readTerm
  rw [e1, e3, e4, e5, e6, e7]
  have p3 := pyInt_digit hc
  have p4 := pyInt_digit hd
  rw [← String.singleton_eq_ofList] at p3 p4
  simp [bind, Except.bind, p3, p4, pure, Except.pure]

theorem readTerm_python2 {s : Series} {t : Line × Line × Line} {line : Line} (hs : s.Ok) (ht : t ∈ s.terms)
    (h : TermRecord s t line) :
    readTerm (some strip2) s.ic s.it line =
      .ok (String.ofList t.1 ++ " " ++ String.ofList t.2.1 ++ " " ++ String.ofList t.2.2) := by
  obtain ⟨n1, n2, n3⟩ := hs.2.2.2.2 t ht
  rw [readTerm_eq hs h]
  simp [StringModule.strip, bind, Except.bind, strip2_rightIn n1, strip2_rightIn n2, strip2_rightIn n3, pure, Except.pure]

theorem coordName_letter {ic : ℕ} (h1 : 1 ≤ ic) (h3 : ic ≤ 3) : coordName ic = .ok (coordLetter ic) := by
  interval_cases ic <;> rfl

/-! ## Python 2 -/

theorem convert_state (m : StringModule) (planet : String) (ic it : ℤ) (l : List Line) :
    convertLines m planet ic it 0 l = convertLines m planet 0 0 0 l := by
  cases l <;> rfl

theorem convert_terms {planet : String} {s : Series} (hs : s.Ok) (tail : List Line) :
    ∀ (ts : List (Line × Line × Line)) (body : List Line), (∀ t ∈ ts, t ∈ s.terms) →
      List.Forall₂ (TermRecord s) ts body →
      convertLines (some strip2) planet s.ic s.it ts.length (body ++ tail) =
        ⟨(ts.map fun t => String.ofList t.1 ++ " " ++ String.ofList t.2.1 ++ " " ++ String.ofList t.2.2) ++
          (convertLines (some strip2) planet 0 0 0 tail).lines, (convertLines (some strip2) planet 0 0 0 tail).exc⟩ := by
  intro ts body hts hf
  induction hf with
  | nil => exact convert_state _ _ _ _ _
  | @cons t line ts body h1 _ ih =>
    rw [List.cons_append, List.length_cons, convertLines, readTerm_python2 hs (hts t List.mem_cons_self) h1,
      ih (fun u hu => hts u (List.mem_cons_of_mem _ hu))]
    rfl

theorem convert_file {planet : String} {name : Line} (hn : rstrip (leftIn 7 name) = planet.toList.map Char.toUpper)
    {data : List Series} {f : List Line} (h : VsopFile name data f) :
    convertLines (some strip2) planet 0 0 0 f = ⟨data.flatMap (seriesText planet), none⟩ := by
  induction h with
  | nil => rfl
  | @cons s more head body tail hs hh hb _ ih =>
    rw [List.cons_append, convertLines, readHeader_ok hs hn hh]
    simp only [coordName_letter hs.1 hs.2.1, Int.toNat_natCast]
    rw [convert_terms hs tail s.terms body (fun t ht => ht) hb, ih]
    rfl

/-- The names in the model are those of the distribution. -/
theorem names_ok : vsopPlanets = vsopNames.map (·.1) ∧ ∀ n ∈ vsopNames,
    rstrip (leftIn 7 n.2.1) = n.1.toList.map Char.toUpper ∧ vsopFileName n.1 = n.2.2 := by
  decide +kernel

theorem convert_planets {files : String → Option (List Line)} {data : String → List Series}
    (ns : List (String × Line × String)) (hns : ∀ n ∈ ns, n ∈ vsopNames)
    (h : ∀ n ∈ ns, ∃ f, files n.2.2 = some f ∧ VsopFile n.2.1 (data n.1) f) :
    convertPlanets (some strip2) files (ns.map (·.1)) =
      ⟨ns.flatMap fun n => (data n.1).flatMap (seriesText n.1), none⟩ := by
  induction ns with
  | nil => rfl
  | cons n ns ih =>
    obtain ⟨f, hf, hv⟩ := h n List.mem_cons_self
    obtain ⟨h1, h2⟩ := names_ok.2 n (hns n List.mem_cons_self)
    rw [List.map_cons, convertPlanets, h2, hf]
    simp only [convert_file h1 hv, ih (fun k hk => hns k (List.mem_cons_of_mem _ hk))
      (fun k hk => h k (List.mem_cons_of_mem _ hk))]
    rfl

/-- With the `string.strip` of Python 2, the eight files of the distribution are converted to the text database: every
series of every planet in the order of the files, every numeral as it is written, and nothing else. -/
theorem create_text_python2 {files : String → Option (List Line)} {data : String → List Series}
    (h : ∀ n ∈ vsopNames, ∃ f, files n.2.2 = some f ∧ VsopFile n.2.1 (data n.1) f) :
    createTextDb (some strip2) files = ⟨databaseText data, none⟩ := by
  rw [createTextDb, names_ok.1, convert_planets vsopNames (fun n hn => hn) h]
  rfl

/-! ## Damaged files -/

/-- The files the program accepts: every header has the version number and the name of the planet, it is followed by as
many records as it announces, and these have the version number and the coordinate and degree of the header. -/
inductive AcceptedFile (name : Line) : List Line → Prop
  | nil : AcceptedFile name []
  | cons {head : Line} {body tail : List Line} {nt : ℤ} :
      head[17]? = some '4' → rstrip (lineSlice head 22 29) = name →
      pyInt (String.ofList (lineSlice head 60 67)) = .ok nt → body.length = nt.toNat →
      (∀ s ∈ body, s[1]? = some '4' ∧ s[3]? = head[41]? ∧ s[4]? = head[59]? ∧ s[3]?.isSome ∧ s[4]?.isSome) →
      AcceptedFile name tail → AcceptedFile name (head :: body ++ tail)

/-- The character is the digit `v`. -/
def DigitIs (c : Option Char) (v : ℤ) : Prop := ∃ d : Char, c = some d ∧ d.isDigit = true ∧ v = ((d.toNat - '0'.toNat : ℕ) : ℤ)

theorem DigitIs.unique {c d : Option Char} {v : ℤ} (hc : DigitIs c v) (hd : DigitIs d v) : c = d := by
  obtain ⟨a, rfl, ha, hv⟩ := hc
  obtain ⟨b, rfl, hb, hw⟩ := hd
  rw [hv] at hw
  have hn : a.toNat - '0'.toNat = b.toNat - '0'.toNat := by exact_mod_cast hw
  have h0 : '0'.toNat = 48 := rfl
  have ha' : 48 ≤ a.toNat := by
    simp only [Char.isDigit, ge_iff_le, Bool.and_eq_true, decide_eq_true_eq] at ha
    exact UInt32.le_iff_toNat_le.mp ha.1
  have hb' : 48 ≤ b.toNat := by
    simp only [Char.isDigit, ge_iff_le, Bool.and_eq_true, decide_eq_true_eq] at hb
    exact UInt32.le_iff_toNat_le.mp hb.1
  congr 1
  apply Char.toNat_inj.mp
  omega

theorem DigitIs.isSome {c : Option Char} {v : ℤ} (hc : DigitIs c v) : c.isSome := by
  obtain ⟨a, rfl, -⟩ := hc; rfl

/-- `int` of one character. -/
theorem pyInt_char {c : Char} {v : ℤ} (h : pyInt (String.ofList [c]) = .ok v) : DigitIs (some c) v := by
  refine ⟨c, rfl, ?_⟩
  by_cases hd : c.isDigit = true
  · refine ⟨hd, ?_⟩
    obtain ⟨a1, a2, a3, a4, a5, a6, n1, n2, -⟩ := digit_not_blank hd
    unfold pyInt at h
    simp only [String.toList_ofList] at h
    rw [List.dropWhile_cons_of_neg (by simp [a1, a2, a3, a4, a5, a6]), List.reverse_singleton,
      List.dropWhile_cons_of_neg (by simp [a1, a2, a3, a4, a5, a6]), List.reverse_singleton] at h
    split at h
    · rename_i n hn
      cases h
      split at hn
      · rename_i heq; exact absurd (List.cons.inj heq).1 n1
      · rename_i heq; exact absurd (List.cons.inj heq).1 n2
      · simp [intDigits, hd] at hn; exact_mod_cast hn.symm
    · cases h
  · exfalso
    unfold pyInt at h
    simp only [String.toList_ofList] at h
    split at h
    · rename_i n hn
      by_cases hb : c = ' ' ∨ c = '\n' ∨ c = '\t' ∨ c = '\r' ∨ c = '\x0b' ∨ c = '\x0c'
      · rw [List.dropWhile_cons_of_pos (by simpa using hb)] at hn
        simp [intDigits] at hn
      · rw [List.dropWhile_cons_of_neg (by simpa using hb), List.reverse_singleton,
          List.dropWhile_cons_of_neg (by simpa using hb), List.reverse_singleton] at hn
        split at hn
        · rename_i heq; cases (List.cons.inj heq).2; simp [intDigits] at hn
        · rename_i heq; cases (List.cons.inj heq).2; simp [intDigits] at hn
        · simp [intDigits, hd] at hn
    · cases h

theorem lineAt_ok {s : Line} {i : ℕ} {c : Char} (h : lineAt s i = .ok c) : s[i]? = some c := by
  unfold lineAt at h
  split at h
  · rename_i d hd; cases h; exact hd
  · cases h

theorem bind_ok {α β : Type} {x : Except PyErr α} {f : α → Except PyErr β} {b : β} (h : (x >>= f) = .ok b) :
    ∃ a, x = .ok a ∧ f a = .ok b := by
  cases x with
  | error e => cases h
  | ok a => exact ⟨a, rfl, h⟩

theorem check_ok {β : Type} {c : Prop} [Decidable c] {e : PyErr} {f : PUnit → Except PyErr β} {b : β}
    (h : (if c then (throw e >>= f) else f PUnit.unit) = .ok b) : ¬ c ∧ f PUnit.unit = .ok b := by
  by_cases hc : c
  · rw [if_pos hc] at h; cases h
  · rw [if_neg hc] at h; exact ⟨hc, h⟩

theorem readHeader_accepts {planet : String} {s : Line} {ic it nt : ℤ} (h : readHeader planet s = .ok (ic, it, nt)) :
    s[17]? = some '4' ∧ rstrip (lineSlice s 22 29) = planet.toList.map Char.toUpper ∧ DigitIs s[41]? ic ∧
      DigitIs s[59]? it ∧ pyInt (String.ofList (lineSlice s 60 67)) = .ok nt := by
  unfold readHeader at h
  obtain ⟨c, h1, h⟩ := bind_ok h
  obtain ⟨h2, h⟩ := check_ok h
  obtain ⟨h3, h⟩ := check_ok h
  obtain ⟨d, h4, h⟩ := bind_ok h
  obtain ⟨ic', h5, h⟩ := bind_ok h
  obtain ⟨e, h6, h⟩ := bind_ok h
  obtain ⟨it', h7, h⟩ := bind_ok h
  obtain ⟨nt', h8, h⟩ := bind_ok h
  cases h
  have hc := not_not.mp h2
  subst hc
  refine ⟨lineAt_ok h1, not_not.mp h3, ?_, ?_, h8⟩
  · rw [lineAt_ok h4]; exact pyInt_char h5
  · rw [lineAt_ok h6]; exact pyInt_char h7

theorem readTerm_accepts {m : StringModule} {ic it : ℤ} {s : Line} {t : String} (h : readTerm m ic it s = .ok t) :
    s[1]? = some '4' ∧ DigitIs s[3]? ic ∧ DigitIs s[4]? it := by
  unfold readTerm at h
  obtain ⟨c, h1, h⟩ := bind_ok h
  obtain ⟨h2, h⟩ := check_ok h
  obtain ⟨d, h4, h⟩ := bind_ok h
  obtain ⟨ic', h5, h⟩ := bind_ok h
  obtain ⟨h3, h⟩ := check_ok h
  obtain ⟨e, h6, h⟩ := bind_ok h
  obtain ⟨it', h7, h⟩ := bind_ok h
  obtain ⟨h8, h⟩ := check_ok h
  have hc := not_not.mp h2
  have hi := not_not.mp h3
  have ht := not_not.mp h8
  subst hc hi ht
  refine ⟨lineAt_ok h1, ?_, ?_⟩
  · rw [lineAt_ok h4]; exact pyInt_char h5
  · rw [lineAt_ok h6]; exact pyInt_char h7

theorem convert_checked (m : StringModule) (planet : String) : ∀ (f : List Line) (ic it : ℤ) (k : ℕ),
    (convertLines m planet ic it k f).exc = none →
      (convertLines m planet ic it k f).lines.length = f.length ∧
      ∃ body tail, f = body ++ tail ∧ body.length = k ∧
        (∀ s ∈ body, s[1]? = some '4' ∧ DigitIs s[3]? ic ∧ DigitIs s[4]? it) ∧
        AcceptedFile (planet.toList.map Char.toUpper) tail := by
  intro f
  induction f with
  | nil =>
    intro ic it k h
    cases k with
    | zero => exact ⟨rfl, [], [], rfl, rfl, by simp, AcceptedFile.nil⟩
    | succ k => cases h
  | cons s rest ih =>
    intro ic it k h
    cases k with
    | zero =>
      rw [convertLines] at h ⊢
      cases hr : readHeader planet s with
      | error e => rw [hr] at h; cases h
      | ok r =>
        obtain ⟨ic', it', nt⟩ := r
        simp only [hr] at h ⊢
        cases hc : coordName ic' with
        | error e => rw [hc] at h; cases h
        | ok c =>
          simp only [hc] at h ⊢
          obtain ⟨h1, body, tail, rfl, h2, h3, h4⟩ := ih ic' it' nt.toNat h
          obtain ⟨a1, a2, a3, a4, a5⟩ := readHeader_accepts hr
          refine ⟨by simp [Page.cons, h1], [], s :: body ++ tail, rfl, rfl, by simp,
            AcceptedFile.cons a1 a2 a5 h2 ?_ h4⟩
          intro l hl
          obtain ⟨b1, b2, b3⟩ := h3 l hl
          exact ⟨b1, b2.unique a3, b3.unique a4, b2.isSome, b3.isSome⟩
    | succ k =>
      rw [convertLines] at h ⊢
      cases hr : readTerm m ic it s with
      | error e => rw [hr] at h; cases h
      | ok t =>
        simp only [hr] at h ⊢
        obtain ⟨h1, body, tail, rfl, h2, h3, h4⟩ := ih ic it k h
        refine ⟨by simp [Page.cons, h1], s :: body, tail, rfl, by simp [h2], ?_, h4⟩
        intro l hl
        rcases List.mem_cons.mp hl with rfl | hl
        · exact readTerm_accepts hr
        · exact h3 l hl

theorem convert_planets_checked (m : StringModule) (files : String → Option (List Line))
    (ns : List (String × Line × String)) (hns : ∀ n ∈ ns, n ∈ vsopNames)
    (h : (convertPlanets m files (ns.map (·.1))).exc = none) :
    ∃ fs : List (List Line), List.Forall₂ (fun n f => files n.2.2 = some f ∧ AcceptedFile n.2.1 f) ns fs ∧
      (convertPlanets m files (ns.map (·.1))).lines.length = (fs.map List.length).sum := by
  induction ns with
  | nil => exact ⟨[], List.Forall₂.nil, rfl⟩
  | cons n ns ih =>
    rw [List.map_cons, convertPlanets] at h ⊢
    obtain ⟨-, hn⟩ := names_ok.2 n (hns n List.mem_cons_self)
    have hu : n.1.toList.map Char.toUpper = n.2.1 := by
      have : ∀ n ∈ vsopNames, n.1.toList.map Char.toUpper = n.2.1 := by decide +kernel
      exact this n (hns n List.mem_cons_self)
    rw [hn] at h ⊢
    cases hf : files n.2.2 with
    | none => rw [hf] at h; cases h
    | some f =>
      simp only [hf] at h ⊢
      cases he : (convertLines m n.1 0 0 0 f).exc with
      | some e => simp only [he] at h; cases h
      | none =>
        simp only [he] at h ⊢
        obtain ⟨fs, i1, i2⟩ := ih (fun k hk => hns k (List.mem_cons_of_mem _ hk)) h
        obtain ⟨c1, body, tail, rfl, c2, -, c3⟩ := convert_checked m n.1 f 0 0 0 he
        rw [List.length_eq_zero_iff] at c2
        subst c2
        rw [hu] at c3
        rw [List.nil_append] at c1 hf
        exact ⟨tail :: fs, List.Forall₂.cons ⟨hf, c3⟩ i1, by simp [c1, i2]⟩

/-- Whatever the files are: if the program ends without an exception, all eight files are there, each has the name of
its planet in every header and the announced number of records of the right version, coordinate and degree after it, and
there is one line for each record. -/
theorem create_text_checked (m : StringModule) (files : String → Option (List Line))
    (h : (createTextDb m files).exc = none) :
    ∃ fs : List (List Line), List.Forall₂ (fun n f => files n.2.2 = some f ∧ AcceptedFile n.2.1 f) vsopNames fs ∧
      (createTextDb m files).lines.length = (fs.map List.length).sum := by
  rw [createTextDb, names_ok.1] at h ⊢
  exact convert_planets_checked m files vsopNames (fun n hn => hn) h

/-! ## Python 3 -/

/-- A header line of the text database. -/
def HeaderLine (l : String) (nt : ℤ) : Prop :=
  ∃ planet ∈ vsopNames.map (·.1), ∃ c ∈ ["L", "B", "R"], ∃ it : ℤ,
    l = planet ++ " " ++ c ++ " " ++ toString it ++ " " ++ toString nt

/-- Whatever the line is, a term is not converted. -/
theorem readTerm_python3 (ic it : ℤ) (s : Line) : ∃ e, readTerm none ic it s = .error e := by
  cases h : readTerm none ic it s with
  | error e => exact ⟨e, rfl⟩
  | ok t =>
    exfalso
    unfold readTerm at h
    simp only [StringModule.strip, bind, Except.bind] at h
    repeat' split at h
    all_goals cases h

theorem coordName_mem {ic : ℤ} {c : String} (h : coordName ic = .ok c) : c ∈ ["L", "B", "R"] := by
  unfold coordName at h
  split_ifs at h <;> (cases h; decide)

/-- What a file gives: header lines only; all of them but the last announce no term; and if there is no exception the
last one does not either. -/
theorem convert_python3 {planet : String} (hp : planet ∈ vsopNames.map (·.1)) :
    ∀ (l : List Line) (ic it : ℤ) (k : ℕ),
      (k = 0 ∨ (convertLines none planet ic it k l).lines = [] ∧ (convertLines none planet ic it k l).exc ≠ none) ∧
      ∃ ns : List ℤ, List.Forall₂ HeaderLine (convertLines none planet ic it k l).lines ns ∧
        (∀ n ∈ ns.dropLast, n ≤ 0) ∧ ((convertLines none planet ic it k l).exc = none → ∀ n ∈ ns, n ≤ 0) := by
  intro l
  induction l with
  | nil =>
    intro ic it k
    cases k with
    | zero => exact ⟨Or.inl rfl, [], List.Forall₂.nil, by simp, by simp⟩
    | succ k => exact ⟨Or.inr ⟨rfl, by simp [convertLines]⟩, [], List.Forall₂.nil, by simp, by simp⟩
  | cons s rest ih =>
    intro ic it k
    cases k with
    | succ k =>
      obtain ⟨e, he⟩ := readTerm_python3 ic it s
      have hc : convertLines none planet ic it (k + 1) (s :: rest) = ⟨[], some e⟩ := by rw [convertLines, he]
      rw [hc]
      exact ⟨Or.inr ⟨rfl, by simp⟩, [], List.Forall₂.nil, by simp, by simp⟩
    | zero =>
      refine ⟨Or.inl rfl, ?_⟩
      rw [convertLines]
      split
      · exact ⟨[], List.Forall₂.nil, by simp, by simp⟩
      · rename_i ic' it' nt hh
        split
        · exact ⟨[], List.Forall₂.nil, by simp, by simp⟩
        · rename_i c hc
          obtain ⟨h1, ns, h2, h3, h4⟩ := ih ic' it' nt.toNat
          have hl : HeaderLine (headerText planet c it' nt) nt := ⟨planet, hp, c, coordName_mem hc, it', rfl⟩
          refine ⟨nt :: ns, List.Forall₂.cons hl h2, ?_, ?_⟩
          · rcases h1 with h0 | ⟨h0, -⟩
            · intro n hn
              cases ns with
              | nil => simp at hn
              | cons a b =>
                rw [List.dropLast_cons_of_ne_nil (by simp)] at hn
                rcases List.mem_cons.mp hn with rfl | hn
                · omega
                · exact h3 n hn
            · rw [h0] at h2
              cases h2
              simp
          · intro hx
            rcases h1 with h0 | ⟨-, h0⟩
            · intro n hn
              rcases List.mem_cons.mp hn with rfl | hn
              · omega
              · exact h4 hx n hn
            · exact absurd hx h0

theorem convert_planets_python3 (files : String → Option (List Line)) (ps : List String)
    (hps : ∀ p ∈ ps, p ∈ vsopNames.map (·.1)) :
    ∃ ns : List ℤ, List.Forall₂ HeaderLine (convertPlanets none files ps).lines ns ∧
      (∀ n ∈ ns.dropLast, n ≤ 0) ∧ ((convertPlanets none files ps).exc = none → ∀ n ∈ ns, n ≤ 0) := by
  induction ps with
  | nil => exact ⟨[], List.Forall₂.nil, by simp, by simp⟩
  | cons p ps ih =>
    obtain ⟨ns, i1, i2, i3⟩ := ih (fun q hq => hps q (List.mem_cons_of_mem _ hq))
    rw [convertPlanets]
    cases hf : files (vsopFileName p) with
    | none => exact ⟨[], List.Forall₂.nil, by simp, by simp⟩
    | some f =>
      obtain ⟨-, ms, h2, h3, h4⟩ := convert_python3 (hps p List.mem_cons_self) f 0 0 0
      simp only []
      split
      · rename_i e he
        exact ⟨ms, h2, h3, by simp⟩
      · rename_i he
        refine ⟨ms ++ ns, List.rel_append h2 i1, ?_, ?_⟩
        · intro n hn
          by_cases hne : ns = []
          · subst hne
            rw [List.append_nil] at hn
            exact h3 n hn
          · rw [List.dropLast_append_of_ne_nil hne] at hn
            rcases List.mem_append.mp hn with hn | hn
            · exact h4 he n hn
            · exact i2 n hn
        · intro hx n hn
          rcases List.mem_append.mp hn with hn | hn
          · exact h4 he n hn
          · exact i3 hx n hn

/-- With Python 3 no term is ever printed, whatever the files are: all the lines are header lines, none but the last
announces a term, and if the program ends without an exception the last does not either. -/
theorem create_text_no_term (files : String → Option (List Line)) :
    ∃ ns : List ℤ, List.Forall₂ HeaderLine (createTextDb none files).lines ns ∧
      (∀ n ∈ ns.dropLast, n ≤ 0) ∧ ((createTextDb none files).exc = none → ∀ n ∈ ns, n ≤ 0) :=
  convert_planets_python3 files vsopPlanets (fun p hp => by rw [← names_ok.1]; exact hp)

/-- With Python 3, on the files of the distribution: the header of the first series of Mercury is printed, and then the
program stops with an `AttributeError`. -/
theorem create_text_python3 {files : String → Option (List Line)} {f : List Line} {s : Series} {more : List Series}
    (hf : files "VSOP87D.mer" = some f) (hv : VsopFile ['M', 'E', 'R', 'C', 'U', 'R', 'Y'] (s :: more) f)
    (hs : s.terms ≠ []) :
    createTextDb none files = ⟨["Mercury " ++ coordLetter s.ic ++ " " ++ toString s.it ++ " " ++ toString s.terms.length],
      some (.AttributeError "module 'string' has no attribute 'strip'")⟩ := by
  obtain ⟨h1, h2⟩ := names_ok.2 ("Mercury", ['M', 'E', 'R', 'C', 'U', 'R', 'Y'], "VSOP87D.mer") (by simp [vsopNames])
  simp only at h1 h2
  cases hv with
  | @cons _ _ head body tail hok hh hb _ =>
    have key : convertLines none "Mercury" 0 0 0 (head :: body ++ tail) =
        ⟨["Mercury " ++ coordLetter s.ic ++ " " ++ toString s.it ++ " " ++ toString s.terms.length],
          some (.AttributeError "module 'string' has no attribute 'strip'")⟩ := by
      rw [List.cons_append, convertLines, readHeader_ok hok h1 hh]
      simp only [coordName_letter hok.1 hok.2.1, Int.toNat_natCast]
      cases hts : s.terms with
      | nil => exact absurd hts hs
      | cons t ts =>
        rw [hts] at hb
        cases hb with
        | @cons _ line _ body ht _ =>
          rw [List.length_cons, List.cons_append, convertLines, readTerm_eq hok ht]
          rfl
    rw [createTextDb, vsopPlanets, convertPlanets, h2, hf]
    simp only [key]

/-! ## An example -/

/-- A term. -/
def exampleTerm0 : Line × Line × Line := (['4', '.', '4', '0', '2', '5', '0', '7', '1', '0', '1', '4', '4'], ['0', '.', '0', '0', '0', '0', '0', '0', '0', '0', '0', '0', '0'], ['0', '.', '0', '0', '0', '0', '0', '0', '0', '0', '0', '0', '0'])

/-- A term. -/
def exampleTerm1 : Line × Line × Line := (['0', '.', '4', '0', '9', '8', '9', '4', '1', '4', '9', '7', '7'], ['1', '.', '4', '8', '3', '0', '2', '0', '3', '4', '1', '9', '5'], ['2', '6', '0', '8', '7', '.', '9', '0', '3', '1', '4', '1', '5', '7', '4', '2', '0'])

/-- A term. -/
def exampleTerm2 : Line × Line × Line := (['0', '.', '0', '0', '3', '5', '0', '0', '6', '9', '3', '0', '0'], ['0', '.', '0', '0', '0', '0', '0', '0', '0', '0', '0', '0', '0'], ['-', '1', '.', '5'])

/-- A series of Mercury. -/
def exampleSeries0 : Series := ⟨1, 0, [exampleTerm0, exampleTerm1]⟩

/-- Another. -/
def exampleSeries1 : Series := ⟨2, 1, [exampleTerm2]⟩

/-- Two series of Mercury. -/
def exampleSeries : List Series := [exampleSeries0, exampleSeries1]

/-- Line 1 of their file. -/
def exampleLine0 : Line :=
  [' ', 'V', 'S', 'O', 'P', '8', '7', ' ', 'V', 'E', 'R', 'S', 'I', 'O', 'N', ' ', 'D',
    '4'] ++ List.replicate 4 ' ' ++ ['M', 'E', 'R', 'C', 'U', 'R', 'Y', ' ', ' ', ' ', 'V', 'A', 'R', 'I', 'A',
    'B', 'L', 'E', ' ', '1', ' ', '(', 'L', 'B', 'R', ')'] ++ List.replicate 7 ' ' ++ ['*', 'T', '*', '*',
    '0'] ++ List.replicate 6 ' ' ++ ['2', ' ', 'T', 'E', 'R', 'M', 'S'] ++ List.replicate 4 ' ' ++ ['H', 'E', 'L',
    'I', 'O', 'C', 'E', 'N', 'T', 'R', 'I', 'C', ' ', 'D', 'Y', 'N', 'A', 'M', 'I', 'C', 'A', 'L', ' ', 'E', 'C',
    'L', 'I', 'P', 'T', 'I', 'C', ' ', 'A', 'N', 'D', ' ', 'E', 'Q', 'U', 'I', 'N', 'O', 'X', ' ', 'O', 'F', ' ',
    'T', 'H', 'E', ' ', 'D', 'A', 'T', 'E', '\n']

/-- Line 2 of their file. -/
def exampleLine1 : Line :=
  [' ', '4', '1', '1', '0'] ++ List.replicate 4 ' ' ++ ['1'] ++ List.replicate 74 ' ' ++ ['4', '.', '4', '0', '2',
    '5', '0', '7', '1', '0', '1', '4', '4', ' ', '0', '.', '0', '0', '0', '0', '0', '0', '0', '0', '0', '0',
    '0'] ++ List.replicate 7 ' ' ++ ['0', '.', '0', '0', '0', '0', '0', '0', '0', '0', '0', '0', '0', '\n']

/-- Line 3 of their file. -/
def exampleLine2 : Line :=
  [' ', '4', '1', '1', '0'] ++ List.replicate 4 ' ' ++ ['2'] ++ List.replicate 74 ' ' ++ ['0', '.', '4', '0', '9',
    '8', '9', '4', '1', '4', '9', '7', '7', ' ', '1', '.', '4', '8', '3', '0', '2', '0', '3', '4', '1', '9', '5',
    ' ', ' ', ' ', '2', '6', '0', '8', '7', '.', '9', '0', '3', '1', '4', '1', '5', '7', '4', '2', '0', '\n']

/-- Line 4 of their file. -/
def exampleLine3 : Line :=
  [' ', 'V', 'S', 'O', 'P', '8', '7', ' ', 'V', 'E', 'R', 'S', 'I', 'O', 'N', ' ', 'D',
    '4'] ++ List.replicate 4 ' ' ++ ['M', 'E', 'R', 'C', 'U', 'R', 'Y', ' ', ' ', ' ', 'V', 'A', 'R', 'I', 'A',
    'B', 'L', 'E', ' ', '2', ' ', '(', 'L', 'B', 'R', ')'] ++ List.replicate 7 ' ' ++ ['*', 'T', '*', '*',
    '1'] ++ List.replicate 6 ' ' ++ ['1', ' ', 'T', 'E', 'R', 'M', 'S'] ++ List.replicate 4 ' ' ++ ['H', 'E', 'L',
    'I', 'O', 'C', 'E', 'N', 'T', 'R', 'I', 'C', ' ', 'D', 'Y', 'N', 'A', 'M', 'I', 'C', 'A', 'L', ' ', 'E', 'C',
    'L', 'I', 'P', 'T', 'I', 'C', ' ', 'A', 'N', 'D', ' ', 'E', 'Q', 'U', 'I', 'N', 'O', 'X', ' ', 'O', 'F', ' ',
    'T', 'H', 'E', ' ', 'D', 'A', 'T', 'E', '\n']

/-- Line 5 of their file. -/
def exampleLine4 : Line :=
  [' ', '4', '1', '2', '1'] ++ List.replicate 4 ' ' ++ ['1'] ++ List.replicate 74 ' ' ++ ['0', '.', '0', '0', '3',
    '5', '0', '0', '6', '9', '3', '0', '0', ' ', '0', '.', '0', '0', '0', '0', '0', '0', '0', '0', '0', '0',
    '0'] ++ List.replicate 16 ' ' ++ ['-', '1', '.', '5', '\n']

/-- Their file. -/
def exampleFile : List Line := [exampleLine0, exampleLine1, exampleLine2, exampleLine3, exampleLine4]

/-- The directory: the other files have no series. -/
def exampleFiles (name : String) : Option (List Line) :=
  if name = "VSOP87D.mer" then some exampleFile
  else if name ∈ vsopNames.map (·.2.2) then some [] else none

/-- The series of the directory. -/
def exampleData (planet : String) : List Series := if planet = "Mercury" then exampleSeries else []

instance (line : List Char) (a b : ℕ) (f : List Char) : Decidable (Columns line a b f) := by
  unfold Columns; infer_instance

instance (w : ℕ) (s : List Char) : Decidable (Numeral w s) := by unfold Numeral; infer_instance

theorem example_ok0 : exampleSeries0.Ok := ⟨by decide +kernel, by decide +kernel, by decide +kernel, by decide +kernel, by decide +kernel⟩

theorem example_ok1 : exampleSeries1.Ok := ⟨by decide +kernel, by decide +kernel, by decide +kernel, by decide +kernel, by decide +kernel⟩

theorem example_head0 : HeaderRecord ['M', 'E', 'R', 'C', 'U', 'R', 'Y'] exampleSeries0 exampleLine0 :=
  ⟨by decide +kernel, by decide +kernel, by decide +kernel, by decide +kernel, by decide +kernel⟩

theorem example_head1 : HeaderRecord ['M', 'E', 'R', 'C', 'U', 'R', 'Y'] exampleSeries1 exampleLine3 :=
  ⟨by decide +kernel, by decide +kernel, by decide +kernel, by decide +kernel, by decide +kernel⟩

theorem example_term0 : TermRecord exampleSeries0 exampleTerm0 exampleLine1 :=
  ⟨by decide +kernel, by decide +kernel, by decide +kernel, by decide +kernel, by decide +kernel, by decide +kernel⟩

theorem example_term1 : TermRecord exampleSeries0 exampleTerm1 exampleLine2 :=
  ⟨by decide +kernel, by decide +kernel, by decide +kernel, by decide +kernel, by decide +kernel, by decide +kernel⟩

theorem example_term2 : TermRecord exampleSeries1 exampleTerm2 exampleLine4 :=
  ⟨by decide +kernel, by decide +kernel, by decide +kernel, by decide +kernel, by decide +kernel, by decide +kernel⟩

theorem example_file : VsopFile ['M', 'E', 'R', 'C', 'U', 'R', 'Y'] exampleSeries exampleFile :=
  VsopFile.cons (body := [exampleLine1, exampleLine2]) (tail := [exampleLine3, exampleLine4]) example_ok0 example_head0
    (List.Forall₂.cons example_term0 (List.Forall₂.cons example_term1 List.Forall₂.nil))
    (VsopFile.cons (body := [exampleLine4]) (tail := []) example_ok1 example_head1
      (List.Forall₂.cons example_term2 List.Forall₂.nil) VsopFile.nil)

theorem example_files : ∀ n ∈ vsopNames, ∃ f, exampleFiles n.2.2 = some f ∧ VsopFile n.2.1 (exampleData n.1) f := by
  intro n hn
  by_cases h : n.1 = "Mercury"
  · have e : n = ("Mercury", ['M', 'E', 'R', 'C', 'U', 'R', 'Y'], "VSOP87D.mer") := by
      revert h; revert n; decide +kernel
    subst e
    exact ⟨exampleFile, rfl, example_file⟩
  · have e : n.2.2 ≠ "VSOP87D.mer" := by revert h; revert n; decide +kernel
    refine ⟨[], ?_, ?_⟩
    · rw [exampleFiles, if_neg e, if_pos (List.mem_map_of_mem hn)]
    · rw [exampleData, if_neg h]; exact VsopFile.nil

/-- The database made from them with Python 2 ... -/
example : createTextDb (some strip2) exampleFiles =
    ⟨["Mercury L 0 2", "4.40250710144 0.00000000000 0.00000000000", "0.40989414977 1.48302034195 26087.90314157420", "Mercury B 1 1", "0.00350069300 0.00000000000 -1.5"], none⟩ := by
  rw [create_text_python2 example_files]; rfl

/-- ... and what Python 3 prints. -/
example : createTextDb none exampleFiles =
    ⟨["Mercury L 0 2"], some (.AttributeError "module 'string' has no attribute 'strip'")⟩ := by
  rw [create_text_python3 (s := exampleSeries0) (more := [exampleSeries1]) rfl example_file (by decide)]; rfl

end Verif
