import Verif.Props.Cronus
import Verif.Props.LocalTime

/-!
# C67: the Easter lines of `cronus`
-/

namespace Verif
open Real Spec

/-- Easter displays. -/
def Job.isEasterShow : Job → Bool
  | .display .easter _ => true
  | _ => false

/-- Everything about Easter. -/
def Job.isEaster : Job → Bool
  | .display .easter _ => true
  | .easter _ => true
  | _ => false

/-- The tasks about Easter. -/
def easterPart (M : List Task) : List Task := M.filter fun t => t.job.isEaster

/-- The line of a year. -/
def easterStr (env : CronusEnv) (y : ℤ) : String :=
  match ltToStr env.fl (easterJd y) "None" "day" with
  | .ok s => padRight 24 s ++ " Easter"
  | .error _ => ""

noncomputable section

def easterWorker (y : ℤ) : Task := ⟨(cj y 3 1 : ℚ), .easter y⟩
def easterShow (env : CronusEnv) (y : ℤ) : Task := ⟨(easterJd y : ℚ), .display .easter (easterStr env y)⟩

/-- What a task adds to the Easter tasks. -/
theorem runTask_easter {env : CronusEnv} (hf : FloatLike env.fl) {start : ℤ} (hs : -1000 ≤ start)
    {st st' : CronusState} {t : Task} {p : List String} (hq : IsHeap Task.jd st.queue) (hd : Due start t)
    (h : runTask env st t = .ok (st', p)) :
    ∃ new, Adds st.queue st'.queue new ∧ (∀ y, t.job = .easter y → new = [easterWorker (y + 1), easterShow env y]) ∧
      ((∀ y, t.job ≠ .easter y) → easterPart new = []) ∧ (∀ str, t.job = .display .easter str → p = [str]) := by
  unfold runTask at h
  unfold Due at hd
  split at h
  · rename_i src str hj
    cases h
    rw [hj]
    exact ⟨[], Adds.refl hq, by simp, fun _ => rfl, fun _ e => by cases e; rfl⟩
  · rename_i y hj
    rw [hj] at hd ⊢
    simp only [bind, Except.bind] at h
    split at h
    · cases h
    rename_i q' he
    cases h
    obtain ⟨s, h1, ha⟩ := doEaster_ok hf (by omega) hq he
    refine ⟨_, ha, fun y' e => ?_, fun e => absurd rfl (e y), fun _ e => by cases e⟩
    cases e
    unfold easterWorker easterShow easterStr
    rw [h1]
  · rename_i y season hj
    rw [hj]
    simp only [bind, Except.bind] at h
    split at h
    · cases h
    rename_i q' he
    cases h
    obtain ⟨a, jd, lt, zone, s, title, h1, h2, -, -, -, ha⟩ := doEquinox_ok hq he
    exact ⟨_, ha, by simp, fun _ => rfl, fun _ e => by cases e⟩
  · rename_i a hj
    rw [hj]
    obtain ⟨new, n1, n2⟩ := doRst_ok hq h
    refine ⟨_, n1, by simp, fun _ => ?_, fun _ e => by cases e⟩
    unfold easterPart
    rw [List.filter_eq_nil_iff]
    intro x hx
    rcases List.mem_cons.mp hx with rfl | hx
    · simp [Job.isEaster]
    · obtain ⟨o, -, t, s, rfl, -⟩ := n2 x hx
      simp [Job.isEaster]

/-- The Easter tasks when `n` lines have been displayed: the next year is waiting, or its line is. -/
def EasterState (env : CronusEnv) (start : ℤ) (n : ℕ) (M : List Task) : Prop :=
  (∃ t : Task, t.job = .easter (start + n) ∧ (t.jd = 0 ∧ n = 0 ∨ t.jd = (cj (start + n) 3 1 : ℚ)) ∧
    (easterPart M).Perm [t]) ∨
  (easterPart M).Perm [easterWorker (start + n + 1), easterShow env (start + n)]

theorem easterPart_perm {a b : List Task} (h : a.Perm b) : (easterPart a).Perm (easterPart b) := h.filter _

theorem easterPart_append (a b : List Task) : easterPart (a ++ b) = easterPart a ++ easterPart b :=
  List.filter_append ..

theorem easterPart_cons_pos {t : Task} (h : t.job.isEaster = true) (q : List Task) :
    easterPart (t :: q) = t :: easterPart q := List.filter_cons_of_pos h

theorem easterPart_cons_neg {t : Task} (h : t.job.isEaster = false) (q : List Task) :
    easterPart (t :: q) = easterPart q := List.filter_cons_of_neg (by rw [h]; simp)

/-- One pass, for Easter. -/
theorem easter_pass {env : CronusEnv} (hf : FloatLike env.fl) {start : ℤ} (hs : -1000 ≤ start)
    (hs2 : start < 2 ^ 31) {c c' : CronusCfg} {p : List String} (i : CronusInv start c) {n : ℕ}
    (he : EasterState env start n (c.cur :: c.st.queue)) (h : cronusPass env c = .ok (c', p)) :
    (c.cur.job.isEasterShow = true → c.cur = easterShow env (start + n) ∧ p = [easterStr env (start + n)] ∧
      EasterState env start (n + 1) (c'.cur :: c'.st.queue)) ∧
    (c.cur.job.isEasterShow = false → EasterState env start n (c'.cur :: c'.st.queue)) := by
  obtain ⟨st, h1, h2⟩ := cronusPass_ok h
  obtain ⟨new, n1, n2, n3, n4⟩ := runTask_easter hf hs i.heap (i.due _ List.mem_cons_self) h1
  obtain ⟨p1, -⟩ := popTask_ok n1.1 h2
  have q := easterPart_perm (p1.symm.trans n1.2)
  rw [easterPart_append] at q
  have e1 : start + ((n + 1 : ℕ) : ℤ) = start + n + 1 := by push_cast; ring
  cases hj : c.cur.job with
  | easter y =>
    refine ⟨fun e => (by simp [Job.isEasterShow] at e), fun _ => ?_⟩
    rw [n2 y hj] at q
    unfold EasterState at he
    rw [easterPart_cons_pos (by rw [hj]; rfl)] at he
    rcases he with ⟨t, t1, t2, t3⟩ | t3
    · have hm : c.cur ∈ [t] := t3.mem_iff.mp List.mem_cons_self
      rw [List.mem_singleton] at hm
      subst hm
      have : easterPart c.st.queue = [] := List.perm_nil.mp ((List.perm_cons _).mp t3)
      rw [this, List.append_nil] at q
      rw [hj] at t1
      cases t1
      exact .inr q
    · exfalso
      have hm : easterShow env (start + n) ∈ c.cur :: easterPart c.st.queue := t3.mem_iff.mpr (by simp)
      have hc : c.cur ∈ [easterWorker (start + n + 1), easterShow env (start + n)] := t3.mem_iff.mp List.mem_cons_self
      simp only [List.mem_cons, List.not_mem_nil, or_false] at hc
      rcases hc with hc | hc
      · rcases List.mem_cons.mp hm with hm | hm
        · rw [← hm] at hj; cases hj
        · have l := i.least _ (List.mem_filter.mp hm).1
          rw [hc] at l
          have l' : cj (start + n + 1) 3 1 ≤ easterJd (start + n) := Rat.cast_le.mp l
          have := (easterJd_bounds (start + n)).2
          have := march_step (show -4712 ≤ start + n by omega)
          linarith
      · rw [hc] at hj; cases hj
  | display src str =>
    rw [n3 (by rw [hj]; simp), List.nil_append] at q
    cases src with
    | easter =>
      refine ⟨fun _ => ?_, fun e => (by simp [Job.isEasterShow] at e)⟩
      unfold EasterState at he
      rw [easterPart_cons_pos (by rw [hj]; rfl)] at he
      rcases he with ⟨t, t1, t2, t3⟩ | t3
      · exfalso
        have hm : c.cur ∈ [t] := t3.mem_iff.mp List.mem_cons_self
        rw [List.mem_singleton] at hm
        rw [← hm, hj] at t1
        cases t1
      · have hc : c.cur ∈ [easterWorker (start + n + 1), easterShow env (start + n)] := t3.mem_iff.mp List.mem_cons_self
        simp only [List.mem_cons, List.not_mem_nil, or_false] at hc
        rcases hc with hc | hc
        · rw [hc] at hj; cases hj
        · have e := n4 str hj
          have e2 : str = easterStr env (start + n) := by
            have : (easterShow env (start + n)).job = .display .easter str := by rw [← hc]; exact hj
            cases this; rfl
          rw [e2] at e
          refine ⟨hc, e, .inl ⟨easterWorker (start + n + 1), ?_, .inr ?_, ?_⟩⟩
          · rw [e1]; rfl
          · rw [e1]; rfl
          · have := t3.trans (List.Perm.swap _ _ _)
            rw [hc] at this
            exact q.trans ((List.perm_cons _).mp this)
    | season | rst =>
      refine ⟨fun e => (by simp [Job.isEasterShow] at e), fun _ => ?_⟩
      unfold EasterState at he ⊢
      rw [easterPart_cons_neg (by rw [hj]; rfl)] at he
      rcases he with ⟨t, t1, t2, t3⟩ | t3
      · exact .inl ⟨t, t1, t2, q.trans t3⟩
      · exact .inr (q.trans t3)
  | equinox y season | rst a =>
    rw [n3 (by rw [hj]; simp), List.nil_append] at q
    refine ⟨fun e => (by simp [Job.isEasterShow] at e), fun _ => ?_⟩
    unfold EasterState at he ⊢
    rw [easterPart_cons_neg (by rw [hj]; rfl)] at he
    rcases he with ⟨t, t1, t2, t3⟩ | t3
    · exact .inl ⟨t, t1, t2, q.trans t3⟩
    · exact .inr (q.trans t3)

/-- The Easter lines of a trace, with the time of their task and what is printed. -/
def easterLines (l : List (Task × List String)) : List (ℝ × List String) :=
  (l.filter fun x => x.1.job.isEasterShow).map fun x => (x.1.jd, x.2)

/-- The line of a year, with its time. -/
def easterLine (env : CronusEnv) (y : ℤ) : ℝ × List String := ((easterJd y : ℚ), [easterStr env y])

theorem easter_steps {env : CronusEnv} (hf : FloatLike env.fl) {start : ℤ} (hs : -1000 ≤ start)
    (hs2 : start < 2 ^ 31) {stop : ℝ} (hstop : stop ≤ 2 ^ 40) {c c' : CronusCfg} {l : List (Task × List String)}
    (h : CronusSteps env stop c l c') : CronusInv start c → ∀ n, EasterState env start n (c.cur :: c.st.queue) →
      ∃ m : ℕ, easterLines l = (List.range m).map (fun k : ℕ => easterLine env (start + n + k)) ∧
        EasterState env start (n + m) (c'.cur :: c'.st.queue) ∧ CronusInv start c' := by
  induction h with
  | refl => intro i n hn; exact ⟨0, rfl, hn, i⟩
  | @step c c1 c2 l p hlt hp _ ih =>
    intro i n hn
    obtain ⟨i', -⟩ := i.pass hf hs hs2 (by linarith) hp
    obtain ⟨a, b⟩ := easter_pass hf hs hs2 i hn hp
    cases hj : c.cur.job.isEasterShow with
    | true =>
      obtain ⟨a1, a2, a3⟩ := a hj
      obtain ⟨m, m1, m2, m3⟩ := ih i' _ a3
      refine ⟨m + 1, ?_, by rwa [show n + (m + 1) = n + 1 + m by omega], m3⟩
      rw [List.range_succ_eq_map, List.map_cons, List.map_map]
      unfold easterLines at m1 ⊢
      rw [List.filter_cons_of_pos (by exact hj), List.map_cons, m1]
      congr 1
      · rw [a1, a2]; simp [easterLine, easterShow]
      · refine List.map_congr_left fun k _ => ?_
        simp only [Function.comp]
        congr 1
        push_cast
        ring
    | false =>
      obtain ⟨m, m1, m2, m3⟩ := ih i' _ (b hj)
      refine ⟨m, ?_, m2, m3⟩
      unfold easterLines at m1 ⊢
      rw [List.filter_cons_of_neg (by rw [hj]; simp), m1]

theorem easterJd_mono {y z : ℤ} (hy : -1000 ≤ y) (h : y < z) : easterJd y < cj z 3 1 := by
  have key : ∀ k : ℕ, easterJd y < cj (y + 1 + k) 3 1 := by
    intro k
    induction k with
    | zero =>
      have := (easterJd_bounds y).2
      have := march_step (show -4712 ≤ y by omega)
      simp only [Nat.cast_zero, add_zero]
      linarith
    | succ k ih =>
      have := march_step (show -4712 ≤ y + 1 + k by omega)
      rw [show y + 1 + ((k + 1 : ℕ) : ℤ) = y + 1 + k + 1 by push_cast; ring]
      linarith
  have := key (z - (y + 1)).toNat
  rwa [show y + 1 + ((z - (y + 1)).toNat : ℤ) = z by omega] at this

/-- C67: the Easter lines displayed are those of the consecutive years from `start` on, each once; and when the
loop ends, they are those of all the Easters before `stop`. -/
theorem cronus_easter {env : CronusEnv} (hf : FloatLike env.fl) {start stop : ℤ} (hs : -1000 ≤ start)
    (hstop : stop ≤ 2 ^ 40) {l : List (Task × List String)} {c : CronusCfg} (h : CronusRun env start stop l c) :
    ∃ n : ℕ, easterLines l = (List.range n).map (fun k : ℕ => easterLine env (start + k)) ∧
      (0 < stop → (stop : ℝ) ≤ c.cur.jd → ∀ y, start ≤ y → (y < start + n ↔ easterJd y < stop)) := by
  cases h with
  | intro h1 h2 h3 =>
    have lt := (cronus_stop_is_jd hf hs (.intro h1 h2 h3)).1
    obtain ⟨y2, rfl, i, z⟩ := cronusInit_inv hf hs h1 h2
    obtain ⟨-, -, ih, ip⟩ := cronusInit_ok hf (by omega) h1
    obtain ⟨p1, -⟩ := popTask_ok ih h2
    have q := easterPart_perm (p1.symm.trans ip)
    obtain ⟨n, n1, n2, n3⟩ := easter_steps hf hs y2 (by exact_mod_cast hstop) h3 i 0
      (.inl ⟨⟨0, .easter start⟩, by simp, .inl ⟨rfl, rfl⟩, q⟩)
    simp only [Nat.cast_zero, add_zero, zero_add] at n1 n2
    refine ⟨n, n1, fun s0 hc y hy => ?_⟩
    have all : ∀ x ∈ easterPart (c.cur :: c.st.queue), (stop : ℝ) ≤ x.jd := by
      intro x hx
      rcases List.mem_cons.mp (List.mem_filter.mp hx).1 with rfl | hx
      · exact hc
      · exact hc.trans (n3.least x hx)
    constructor
    · intro hlt
      obtain ⟨k, rfl⟩ : ∃ k : ℕ, y = start + k := ⟨(y - start).toNat, by omega⟩
      have hk : k < n := by omega
      have hm : easterLine env (start + k) ∈ easterLines l := by
        rw [n1]; exact List.mem_map.mpr ⟨k, List.mem_range.mpr hk, rfl⟩
      unfold easterLines at hm
      obtain ⟨x, hx, e⟩ := List.mem_map.mp hm
      have := lt x (List.mem_filter.mp hx).1
      have e' : x.1.jd = ((easterJd (start + k) : ℚ) : ℝ) := congrArg Prod.fst e
      rw [e'] at this
      exact_mod_cast this
    · intro he
      by_contra hge
      have hge : start + n ≤ y := by omega
      have mono : cj (start + n) 3 1 + 21 ≤ easterJd y ∧ easterJd (start + n) ≤ easterJd y := by
        rcases hge.lt_or_eq with hlt | rfl
        · have := easterJd_mono (show -1000 ≤ start + n by omega) hlt
          have b := (easterJd_bounds y).1
          have b' := (easterJd_bounds (start + n)).1
          constructor <;> linarith
        · exact ⟨(easterJd_bounds _).1, le_refl _⟩
      rcases n2 with ⟨t, t1, t2, t3⟩ | t3
      · have := all t (t3.mem_iff.mpr (by simp))
        rcases t2 with ⟨t2, -⟩ | t2
        · rw [t2] at this
          have : stop ≤ 0 := by exact_mod_cast this
          omega
        · rw [t2] at this
          have : (stop : ℚ) ≤ cj (start + n) 3 1 := by exact_mod_cast this
          linarith
      · have := all (easterShow env (start + n)) (t3.mem_iff.mpr (by simp))
        have : (stop : ℚ) ≤ easterJd (start + n) := by
          have h' : (stop : ℝ) ≤ ((easterJd (start + n) : ℚ) : ℝ) := this
          exact_mod_cast h'
        linarith

/-- C67: for the years from 1 on, the time is the Julian Day of Easter Sunday, and the line shows its date. -/
theorem easterLine_text {env : CronusEnv} (hf : FloatLike env.fl) {y : ℤ} (hy : 1 ≤ y) (hy2 : y < 2 ^ 31) :
    ∃ m d, IsEaster true y m d ∧ easterLine env y = (((jd0 true y m d : ℚ) : ℝ),
      [padRight 24 (toString y ++ "-" ++ two m ++ "-" ++ two d) ++ " Easter"]) := by
  obtain ⟨he, hw⟩ := easter_isEaster true y
  refine ⟨_, _, he, ?_⟩
  generalize hm : (easter1 y true).1 = m at *
  generalize hd : (easter1 y true).2 = d at *
  have hv := he.1
  have nx : ¬ Exceptional true y m := by
    rintro ⟨-, c, h1, -, -, h4⟩; rcases h4 with ⟨h, -⟩ | ⟨h, h'⟩ <;> omega
  have nb : ¬ BadDay true y m d := by rintro ⟨-, h3, h1, -⟩; omega
  obtain ⟨jd, e1, e2⟩ := jd_to_cal_cal_to_jd hf true y m d (by omega) hy2 hv nx nb
  have e3 := calToJdScalar_ok hf (show -2 ^ 31 ≤ y by omega) hy2 hv
  unfold calToJdScalar at e3
  rw [e1] at e3
  simp only [bind, Except.bind, Except.ok.injEq] at e3
  subst e3
  have ej : easterJd y = cj y m d := by unfold easterJd; rw [hm, hd]
  have ex : cj y m d = jd0 true y m d := by
    unfold cj; rw [(excess_eq true y m (by omega)).2 nx]; simp
  have e4 : jdToCal1 env.fl (cj y m d) true = (y, m, (d : ℚ)) := by
    simp only [jdToCal, List.map_cons, List.map_nil, scalarIfOne, Prod.mk.injEq, Out.scalar.injEq] at e2
    exact Prod.ext e2.1 (Prod.ext e2.2.1 e2.2.2)
  have mb : 0 ≤ m ∧ m < 100 := ⟨by linarith [hv.1], by linarith [hv.2.1]⟩
  have db : 0 ≤ d ∧ d < 100 := by
    have := monthLen_le true y m
    exact ⟨by linarith [hv.2.2.1], by linarith [hv.2.2.2]⟩
  have d0 : (0 : ℚ) ≤ d := by exact_mod_cast db.1
  have t1 : trunc (d : ℚ) = d := trunc_eq (by linarith) (by linarith) (by linarith)
  unfold easterLine easterStr
  rw [ej, ltToStr, e4]
  simp only [t1, ← ex, pad2_eq_two _ mb.1 mb.2, pad2_eq_two _ db.1 db.2]
  simp [String.append_assoc, toString]

end
end Verif
