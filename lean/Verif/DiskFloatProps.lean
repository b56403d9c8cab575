import Verif.DiskFloat
import Verif.RunFilesProps
import Verif.CoordFloatProps

/-!
C156: rounding on the way into the output files keeps the limits of the images when these are numbers of the type of the file.
-/

namespace Verif.DiskFloat
open Verif.Run
open Verif.RestartFloat (Precision)

variable {ι D : Type}

/-! ### Specification -/

/-- A number with 24 binary digits. -/
def Short (a : ℝ) : Prop := ∃ z k : ℤ, |z| ≤ 2 ^ 24 ∧ a = z * (2 : ℝ) ^ k

/-- Both limits are such numbers. -/
def ShortLimits (l : Limits) : Prop := (∀ a, l.lo = some a → Short a) ∧ ∀ b, l.hi = some b → Short b

/-- The limits of the sections whose images are limited, without the wind. -/
structure ShortCfg (c : Cfg ι D) : Prop where
  airTemp : ShortLimits c.airTemp
  vapor : ShortLimits c.vapor
  cloud : ShortLimits c.cloud
  albedo : ShortLimits (albedoLimits c)
  solar : ShortLimits (solarLimits c)
  thermal : ShortLimits (thermalLimits c)

variable [Fintype ι]

/-- The run leaves files in which every value not masked out respects the limits of its variable. -/
def Leaves (p : Precision) (c : Cfg ι D) (oc : OutCfg ι) (fuel : Nat) (s : State ι) (xs : List (In ι D)) (vs : Name → Prop) : Prop :=
  ∃ fs, runFiles p c oc fuel s xs = (fs, none) ∧ ∀ v, vs v → ∀ r ∈ fs v, ∀ i,
    ((∀ m, oc.mask = some m → m i = 1) → Fine c v (r.2 i)) ∧ ∀ m, oc.mask = some m → m i = 0 → r.2 i = 0

/-- Claimed: C129 for files in either precision. -/
def C156_full : Prop := ∀ (p : Precision) (c : Cfg Unit ℝ) (oc : OutCfg Unit) (fuel : Nat) (s : State Unit) (xs : List (In Unit ℝ))
  (os : List (Out Unit)), Sensible c → 0 < oc.minutes → oc.vars.Nodup → Physical s.ppt → Run.run c fuel s xs = .ok os →
  Stamp.Near 18 (xs.length * oc.minutes) → (∀ o ∈ os, ∀ v ∈ oc.vars, ∃ d, image o v = .ok d) →
  Leaves p c oc fuel s xs fun _ => True

/-! ### Rounding is monotone -/

theorem binary_zero (n : ℕ) : IdwFloat.binary n 0 = 0 := by simp [IdwFloat.binary]

theorem round_le_of {a b : ℝ} (h : a ≤ b) : (round a : ℝ) ≤ round b := by
  rw [round_eq, round_eq]
  exact_mod_cast Int.floor_le_floor (by linarith)

private theorem p2 (m : ℤ) : (0 : ℝ) < 2 ^ m := by positivity

/-- A positive number is rounded to a number between the powers of two around it. -/
theorem binary_between (n : ℕ) {x : ℝ} (hx : 0 < x) :
    (2 : ℝ) ^ Int.log 2 x ≤ IdwFloat.binary (n + 1) x ∧ IdwFloat.binary (n + 1) x ≤ (2 : ℝ) ^ (Int.log 2 x + 1) := by
  have e := abs_of_pos hx
  unfold IdwFloat.binary
  rw [e]
  set l := Int.log 2 x
  have h1 : (2 : ℝ) ^ l ≤ x := by exact_mod_cast Int.zpow_log_le_self (b := 2) (by norm_num) hx
  have h2 : x < (2 : ℝ) ^ (l + 1) := by exact_mod_cast Int.lt_zpow_succ_log_self (b := 2) (by norm_num) x
  have e1 : (((n + 1 : ℕ) : ℤ) - 1 - l) = (n : ℤ) - l := by push_cast; ring
  have e2 : (l - (((n + 1 : ℕ) : ℤ) - 1)) = l - n := by push_cast; ring
  rw [e1, e2]
  have a1 : ((2 ^ n : ℤ) : ℝ) ≤ x * 2 ^ ((n : ℤ) - l) := by
    have := mul_le_mul_of_nonneg_right h1 (p2 ((n : ℤ) - l)).le
    rw [← zpow_add₀ (by norm_num), show l + ((n : ℤ) - l) = n by ring, zpow_natCast] at this
    push_cast
    exact this
  have a2 : x * 2 ^ ((n : ℤ) - l) ≤ ((2 ^ (n + 1) : ℤ) : ℝ) := by
    have := mul_le_mul_of_nonneg_right h2.le (p2 ((n : ℤ) - l)).le
    rw [← zpow_add₀ (by norm_num), show l + 1 + ((n : ℤ) - l) = ((n + 1 : ℕ) : ℤ) by push_cast; ring, zpow_natCast] at this
    push_cast
    exact this
  have b1 := round_le_of a1
  have b2 := round_le_of a2
  rw [round_intCast] at b1 b2
  constructor
  · have := mul_le_mul_of_nonneg_right b1 (p2 (l - n)).le
    refine le_trans (le_of_eq ?_) this
    push_cast
    rw [← zpow_natCast (2 : ℝ), ← zpow_add₀ (by norm_num)]
    congr 1
    ring
  · have := mul_le_mul_of_nonneg_right b2 (p2 (l - n)).le
    refine le_trans this (le_of_eq ?_)
    push_cast
    rw [← zpow_natCast (2 : ℝ), ← zpow_add₀ (by norm_num)]
    congr 1
    push_cast
    ring

theorem binary_mono_pos (n : ℕ) {x y : ℝ} (hx : 0 < x) (h : x ≤ y) : IdwFloat.binary (n + 1) x ≤ IdwFloat.binary (n + 1) y := by
  have hl : Int.log 2 x ≤ Int.log 2 y := Int.log_mono_right hx h
  rcases lt_or_eq_of_le hl with hlt | heq
  · refine (binary_between n hx).2.trans (le_trans ?_ (binary_between n (hx.trans_le h)).1)
    exact zpow_le_zpow_right₀ (by norm_num) (by omega)
  · unfold IdwFloat.binary
    rw [abs_of_pos hx, abs_of_pos (hx.trans_le h), heq]
    exact mul_le_mul_of_nonneg_right (round_le_of (mul_le_mul_of_nonneg_right h (p2 _).le)) (p2 _).le

/-- The mirror image of rounding, which differs only in ties. -/
private theorem binary_between_neg (n : ℕ) {x : ℝ} (hx : x < 0) :
    -(2 : ℝ) ^ (Int.log 2 |x| + 1) ≤ IdwFloat.binary (n + 1) x ∧ IdwFloat.binary (n + 1) x ≤ -(2 : ℝ) ^ Int.log 2 |x| := by
  have hpos : 0 < |x| := abs_pos.2 hx.ne
  have e := abs_of_neg hx
  unfold IdwFloat.binary
  set l := Int.log 2 |x|
  have h1 : (2 : ℝ) ^ l ≤ |x| := by exact_mod_cast Int.zpow_log_le_self (b := 2) (by norm_num) hpos
  have h2 : |x| < (2 : ℝ) ^ (l + 1) := by exact_mod_cast Int.lt_zpow_succ_log_self (b := 2) (by norm_num) |x|
  rw [e] at h1 h2
  have e1 : (((n + 1 : ℕ) : ℤ) - 1 - l) = (n : ℤ) - l := by push_cast; ring
  have e2 : (l - (((n + 1 : ℕ) : ℤ) - 1)) = l - n := by push_cast; ring
  rw [e1, e2]
  have a1 : x * 2 ^ ((n : ℤ) - l) ≤ ((-2 ^ n : ℤ) : ℝ) := by
    have := mul_le_mul_of_nonneg_right h1 (p2 ((n : ℤ) - l)).le
    rw [← zpow_add₀ (by norm_num), show l + ((n : ℤ) - l) = n by ring, zpow_natCast] at this
    push_cast
    linarith
  have a2 : ((-2 ^ (n + 1) : ℤ) : ℝ) ≤ x * 2 ^ ((n : ℤ) - l) := by
    have := mul_le_mul_of_nonneg_right h2.le (p2 ((n : ℤ) - l)).le
    rw [← zpow_add₀ (by norm_num), show l + 1 + ((n : ℤ) - l) = ((n + 1 : ℕ) : ℤ) by push_cast; ring, zpow_natCast] at this
    push_cast
    linarith
  have b1 := round_le_of a1
  have b2 := round_le_of a2
  rw [round_intCast] at b1 b2
  constructor
  · have := mul_le_mul_of_nonneg_right b2 (p2 (l - n)).le
    refine le_trans (le_of_eq ?_) this
    push_cast
    rw [neg_mul, ← zpow_natCast (2 : ℝ), ← zpow_add₀ (by norm_num)]
    congr 2
    push_cast
    ring
  · have := mul_le_mul_of_nonneg_right b1 (p2 (l - n)).le
    refine le_trans this (le_of_eq ?_)
    push_cast
    rw [neg_mul, ← zpow_natCast (2 : ℝ), ← zpow_add₀ (by norm_num)]
    congr 2
    ring

/-- Rounding keeps the order. -/
theorem binary_mono (n : ℕ) {x y : ℝ} (h : x ≤ y) : IdwFloat.binary (n + 1) x ≤ IdwFloat.binary (n + 1) y := by
  rcases lt_trichotomy 0 x with hx | hx | hx
  · exact binary_mono_pos n hx h
  · rw [← hx, binary_zero]
    rcases eq_or_lt_of_le (hx ▸ h : 0 ≤ y) with hy | hy
    · rw [← hy, binary_zero]
    · exact (p2 _).le.trans (binary_between n hy).1
  · rcases lt_trichotomy 0 y with hy | hy | hy
    · exact (binary_between_neg n hx).2.trans ((neg_nonpos.2 (p2 _).le).trans ((p2 _).le.trans (binary_between n hy).1))
    · rw [← hy, binary_zero]
      exact (binary_between_neg n hx).2.trans (neg_nonpos.2 (p2 _).le)
    · have ha : |y| ≤ |x| := by rw [abs_of_neg hx, abs_of_neg hy]; linarith
      have hl : Int.log 2 |y| ≤ Int.log 2 |x| := Int.log_mono_right (abs_pos.2 hy.ne) ha
      rcases lt_or_eq_of_le hl with hlt | heq
      · refine (binary_between_neg n hx).2.trans (le_trans ?_ (binary_between_neg n hy).1)
        exact neg_le_neg (zpow_le_zpow_right₀ (by norm_num) (by omega))
      · unfold IdwFloat.binary
        rw [heq]
        exact mul_le_mul_of_nonneg_right (round_le_of (mul_le_mul_of_nonneg_right h (p2 _).le)) (p2 _).le

/-- The order of two values is kept in the file, though different values may become equal. -/
theorem C156_monotone (p : Precision) {x y : ℝ} (h : x ≤ y) : p.cast x ≤ p.cast y := by
  cases p with
  | double => exact h
  | single => exact binary_mono 23 h

theorem cast_short (p : Precision) {a : ℝ} (h : Short a) : p.cast a = a := by
  cases p with
  | double => rfl
  | single =>
    obtain ⟨z, k, hz, rfl⟩ := h
    exact CoordFloat.binary_exact 23 z k hz

theorem short_int (z : ℤ) (h : |z| ≤ 2 ^ 24) : Short z := ⟨z, 0, h, by simp⟩

theorem short_zero : Short 0 := by simpa using short_int 0 (by norm_num)
theorem short_one : Short 1 := by simpa using short_int 1 (by norm_num)

/-! ### The files of the exact run, rounded -/

/-- Every number of a file rounded. -/
noncomputable def rounded (p : Precision) (fs : Files ι) : Files ι := fun v => (fs v).map fun r => (r.1, fun i => p.cast (r.2 i))

omit [Fintype ι] in
theorem findTime_map {T R S : Type} [DecidableEq T] (f : R → S) (t : T) (l : List (T × R)) :
    Output.findTime t (l.map fun r => (r.1, f r.2)) = Output.findTime t l := by
  induction l with
  | nil => rfl
  | cons r l ih =>
    rw [List.map_cons]
    unfold Output.findTime
    rw [ih]

omit [Fintype ι] in
theorem write_map {R S : Type} (f : R → S) (l : List (ℚ × R)) (m : ℤ) (d : R) :
    Stamp.writeSingle (l.map fun r => (r.1, f r.2)) (m, f d) = (Stamp.writeSingle l (m, d)).map fun r => (r.1, f r.2) := by
  unfold Stamp.writeSingle
  rw [findTime_map]
  split <;> rename_i h <;> simp only [h] <;> simp [List.map_set]

omit [Fintype ι] in
theorem outputVars_rounded (p : Precision) (mask : Option (ι → ℝ)) (m : ℤ) (o : Out ι) (vs : List Name) (fs : Files ι) :
    outputVars p mask m o vs (rounded p fs) = (rounded p (Run.outputVars mask m o vs fs).1, (Run.outputVars mask m o vs fs).2) := by
  induction vs generalizing fs with
  | nil => rfl
  | cons v vs ih =>
    unfold outputVars Run.outputVars
    split
    · rename_i e he
      simp only [he]
    · rename_i d hd
      simp only [hd]
      rw [← ih]
      congr 1
      funext w
      unfold rounded
      by_cases hw : w = v
      · simp only [hw, if_true]
        exact write_map (fun d i => p.cast (d i)) (fs v) m (masked mask d)
      · simp only [hw, if_false]

theorem loop_rounded (p : Precision) (c : Cfg ι D) (oc : OutCfg ι) (fuel n : Nat) (xs : List (In ι D)) (k : Nat) (s : State ι)
    (fs : Files ι) : loop p c oc fuel n k s (rounded p fs) xs =
      (rounded p (Run.loop c oc fuel n k s fs xs).1, (Run.loop c oc fuel n k s fs xs).2) := by
  induction xs generalizing k s fs with
  | nil => rfl
  | cons x xs ih =>
    unfold loop Run.loop
    split
    · rename_i e he
      simp only [he]
    · rename_i s' o he
      simp only [he]
      have h : output p oc n k o (rounded p fs) = (rounded p (Run.output oc n k o fs).1, (Run.output oc n k o fs).2) := by
        unfold output Run.output
        split
        · exact outputVars_rounded p oc.mask _ o oc.vars fs
        · rfl
      rw [h]
      rcases Run.output oc n k o fs with ⟨fs', e | e⟩
      · exact ih _ _ _
      · rfl

/-- Rounding commutes with the run: the files are those of the run with exact numbers, every number rounded once. -/
theorem C156_files (p : Precision) (c : Cfg ι D) (oc : OutCfg ι) (fuel : Nat) (s : State ι) (xs : List (In ι D)) :
    runFiles p c oc fuel s xs = (rounded p (Run.runFiles c oc fuel s xs).1, (Run.runFiles c oc fuel s xs).2) :=
  loop_rounded p c oc fuel xs.length xs 0 s fun _ => []

/-! ### Limits -/

theorem within_short (p : Precision) {l : Limits} (h : ShortLimits l) {y : ℝ} (hy : Within l y) : Within l (p.cast y) := by
  constructor
  · intro a ha
    rw [← cast_short p (h.1 a ha)]
    exact C156_monotone p (hy.1 a ha)
  · intro b hb
    rw [← cast_short p (h.2 b hb)]
    exact C156_monotone p (hy.2 b hb)

theorem cast_nonneg (p : Precision) {y : ℝ} (h : 0 ≤ y) : 0 ≤ p.cast y := by
  have := C156_monotone p h
  rwa [cast_short p short_zero] at this

omit [Fintype ι] in
theorem fine_short (p : Precision) (c : Cfg ι D) (h : ShortCfg c) (v : Name) (hw : v = .windSpeed → p = .single → ShortLimits c.wind)
    (y : ℝ) (hy : Fine c v y) : Fine c v (p.cast y) := by
  have z := cast_short p short_zero
  cases v with
  | airTemp => exact within_short p h.airTemp hy
  | vapor => exact within_short p h.vapor hy
  | windSpeed =>
    cases p with
    | double => exact hy
    | single => exact within_short _ (hw rfl rfl) hy
  | cloud => exact within_short p h.cloud hy
  | thermal => exact within_short p h.thermal hy
  | percSnow =>
    refine ⟨cast_nonneg p hy.1, ?_⟩
    have := C156_monotone p hy.2
    rwa [cast_short p short_one] at this
  | precip => exact cast_nonneg p hy
  | stormDays => exact cast_nonneg p hy
  | albedoVis => exact hy.imp (within_short p h.albedo) fun e => by rw [e]; exact z
  | albedoIr => exact hy.imp (within_short p h.albedo) fun e => by rw [e]; exact z
  | solar w =>
    cases w with
    | net => exact hy.imp (within_short p h.solar) fun e => by rw [e]; exact z
    | _ => trivial
  | _ => trivial

/-- The files of a run, in whatever precision, respect the limits if these have at most 24 digits. Missing: other limits in single
precision (`C156_fails`). -/
theorem C156_limits_partial (p : Precision) (c : Cfg ι D) (hc : Sensible c) (hs : ShortCfg c) (vs : Name → Prop)
    (hw : vs .windSpeed → p = .single → ShortLimits c.wind) (oc : OutCfg ι) (fuel : Nat) (hm : 0 < oc.minutes) (hd : oc.vars.Nodup)
    (s : State ι) (hp : Physical s.ppt) (xs : List (In ι D)) (os : List (Out ι)) (h : Run.run c fuel s xs = .ok os)
    (hn : Stamp.Near 18 (xs.length * oc.minutes)) (ho : ∀ o ∈ os, ∀ v ∈ oc.vars, ∃ d, image o v = .ok d) :
    Leaves p c oc fuel s xs vs := by
  obtain ⟨fs, h1, h2⟩ := C129_in_range c hc oc fuel hm hd s hp xs os h hn ho
  refine ⟨rounded p fs, by rw [C156_files, h1], fun v hv r hr i => ?_⟩
  obtain ⟨q, hq, rfl⟩ := List.mem_map.1 hr
  obtain ⟨a, b⟩ := h2 v q hq i
  refine ⟨fun hmask => fine_short p c hs v (fun e => hw (e ▸ hv)) _ (a hmask), fun m h3 h4 => ?_⟩
  show p.cast (q.2 i) = 0
  rw [b m h3 h4, cast_short p short_zero]

/-- With `netcdf_output_precision = double` the files hold the images themselves. -/
theorem C156_double (c : Cfg ι D) (oc : OutCfg ι) (fuel : Nat) (s : State ι) (xs : List (In ι D)) :
    runFiles .double c oc fuel s xs = Run.runFiles c oc fuel s xs := by
  rw [C156_files]
  have : ∀ fs : Files ι, rounded .double fs = fs := by
    intro fs
    funext v
    unfold rounded
    exact List.map_id (fs v)
  rw [this]

/-- The default limits have at most 24 digits, but for the lowest wind speed. -/
theorem C156_default (p : Precision) (c : Cfg ι D) (hc : Sensible c) (hl : DefaultLimits c) (oc : OutCfg ι) (fuel : Nat)
    (hm : 0 < oc.minutes) (hd : oc.vars.Nodup) (s : State ι) (hp : Physical s.ppt) (xs : List (In ι D)) (os : List (Out ι))
    (h : Run.run c fuel s xs = .ok os) (hn : Stamp.Near 18 (xs.length * oc.minutes))
    (ho : ∀ o ∈ os, ∀ v ∈ oc.vars, ∃ d, image o v = .ok d) : Leaves p c oc fuel s xs (· ≠ .windSpeed) := by
  have lim : ∀ a b : ℤ, |a| ≤ 2 ^ 24 → |b| ≤ 2 ^ 24 → ShortLimits ⟨some (a : ℝ), some (b : ℝ)⟩ := by
    intro a b ha hb
    constructor <;> intro t ht <;> simp only [Option.some.injEq] at ht <;> rw [← ht]
    · exact short_int a ha
    · exact short_int b hb
  refine C156_limits_partial p c hc ⟨?_, ?_, ?_, ?_, ?_, ?_⟩ _ (fun h => absurd rfl h) oc fuel hm hd s hp xs os h hn ho
  · rw [hl.airTemp]; simpa using lim (-73) 47 (by norm_num) (by norm_num)
  · rw [hl.vapor]; simpa using lim 20 5000 (by norm_num) (by norm_num)
  · rw [hl.cloud]; simpa using lim 0 1 (by norm_num) (by norm_num)
  · rw [hl.albedo]; simpa using lim 0 1 (by norm_num) (by norm_num)
  · rw [hl.solar]; simpa using lim 0 800 (by norm_num) (by norm_num)
  · rw [hl.thermal]; simpa using lim 0 600 (by norm_num) (by norm_num)

omit [Fintype ι] in
/-- Whatever the limits, a value leaves them by at most one part in 16777216 of itself. -/
theorem C156_near (p : Precision) (l : Limits) (y : ℝ) (h : Within l y) :
    (∀ a, l.lo = some a → a - |y| / 2 ^ 24 ≤ p.cast y) ∧ ∀ b, l.hi = some b → p.cast y ≤ b + |y| / 2 ^ 24 := by
  have e : |p.cast y - y| ≤ |y| / 2 ^ 24 := by
    cases p with
    | double => show |y - y| ≤ _; simp; positivity
    | single =>
      have := IdwFloat.C144_nearest 23 y
      rw [show ((1 : ℝ) / 2) ^ (23 + 1) * |y| = |y| / 2 ^ 24 by norm_num; ring] at this
      exact this
  rw [_root_.abs_le] at e
  exact ⟨fun a ha => by linarith [h.1 a ha, e.1], fun b hb => by linarith [h.2 b hb, e.2]⟩

omit [Fintype ι] in
theorem expected_pairs (oc : OutCfg ι) (os : List (Out ι)) (h : ∀ o ∈ os, ∀ i, o.dew i ≤ o.airTemp i) (k : Nat) (l l' : List (ℚ × (ι → ℝ)))
    (hl : l.map (fun r => (r.1, Except.ok r.2)) = expectedFrom oc .dew k os)
    (hl' : l'.map (fun r => (r.1, Except.ok r.2)) = expectedFrom oc .airTemp k os) :
    List.Forall₂ (fun r q => r.1 = q.1 ∧ ∀ i, (∀ m, oc.mask = some m → 0 ≤ m i) → r.2 i ≤ q.2 i) l l' := by
  induction os generalizing k l l' with
  | nil =>
    rw [expectedFrom, List.map_eq_nil_iff] at hl hl'
    rw [hl, hl']
    exact .nil
  | cons o os ih =>
    rw [expectedFrom] at hl hl'
    have h' : ∀ a ∈ os, ∀ i, a.dew i ≤ a.airTemp i := fun a ha => h a (List.mem_cons_of_mem _ ha)
    by_cases hk : k % oc.freq = 0
    · rw [if_pos hk, List.singleton_append] at hl hl'
      obtain ⟨r, t, rfl, e1, e2⟩ := List.map_eq_cons_iff.1 hl
      obtain ⟨r', t', rfl, e1', e2'⟩ := List.map_eq_cons_iff.1 hl'
      refine .cons ⟨?_, fun i hi => ?_⟩ (ih h' (k + 1) t t' e2 e2')
      · rw [(Prod.mk.inj e1).1, (Prod.mk.inj e1').1]
      · have a : (Except.ok r.2 : Except Solar.Err (ι → ℝ)) = .ok (masked oc.mask o.dew) := (Prod.mk.inj e1).2
        have b : (Except.ok r'.2 : Except Solar.Err (ι → ℝ)) = .ok (masked oc.mask o.airTemp) := (Prod.mk.inj e1').2
        rw [Except.ok.inj a, Except.ok.inj b]
        unfold masked
        cases hm : oc.mask with
        | none => exact h o (by simp) i
        | some m => exact mul_le_mul_of_nonneg_right (h o (by simp) i) (hi m hm)
    · rw [if_neg hk, List.nil_append] at hl hl'
      exact ih h' (k + 1) l l' hl hl'

/-- The files of dew point and air temperature have records for the same times, and the dew point is in no record above the air
temperature. -/
theorem C156_dew (p : Precision) (c : Cfg ι D) (hc : Sensible c) (oc : OutCfg ι) (fuel : Nat) (hm : 0 < oc.minutes) (hd : oc.vars.Nodup)
    (hv : Name.dew ∈ oc.vars ∧ Name.airTemp ∈ oc.vars) (s : State ι) (hp : Physical s.ppt)
    (xs : List (In ι D)) (os : List (Out ι)) (h : Run.run c fuel s xs = .ok os) (hn : Stamp.Near 18 (xs.length * oc.minutes))
    (ho : ∀ o ∈ os, ∀ v ∈ oc.vars, ∃ d, image o v = .ok d) : ∃ fs, runFiles p c oc fuel s xs = (fs, none) ∧
      List.Forall₂ (fun r q => r.1 = q.1 ∧ ∀ i, (∀ m, oc.mask = some m → 0 ≤ m i) → r.2 i ≤ q.2 i) (fs .dew) (fs .airTemp) := by
  obtain ⟨fs, h1, -, h3⟩ := C129_files c oc fuel hm hd s xs os h hn ho
  refine ⟨rounded p fs, by rw [C156_files, h1], ?_⟩
  have hx := C125_in_range c hc fuel s hp xs os h
  have key := expected_pairs oc os (fun o hmem i => by
    obtain ⟨j, hj, rfl⟩ := List.getElem_of_mem hmem
    exact (((List.forall₂_iff_get.1 hx).2 j (by rw [(List.forall₂_iff_get.1 hx).1]; exact hj) hj).dew i).le) 0 (fs .dew) (fs .airTemp)
    (by rw [h3 _ hv.1, expected_from]) (by rw [h3 _ hv.2, expected_from])
  unfold rounded
  rw [List.forall₂_map_left_iff, List.forall₂_map_right_iff]
  exact key.imp fun r q ⟨a, b⟩ => ⟨a, fun i hi => C156_monotone p (b i hi)⟩

/-- 0.447 in single precision is 14998831 / 2^25, which is less. -/
theorem calm_single : Precision.single.cast (447 / 1000) = 14998831 / 2 ^ 25 := by
  show IdwFloat.binary 24 (447 / 1000) = _
  rw [RestartFloat.binary_eval 24 (by norm_num) (-2) (by norm_num [zpow_neg]) (by norm_num [zpow_neg]) 14998831
    (by norm_num [zpow_neg]) (by norm_num [zpow_neg])]
  norm_num [zpow_neg]

omit [Fintype ι] in
theorem expected_all (oc : OutCfg ι) (v : Name) (hf : oc.freq = 1) (os : List (Out ι)) (k : Nat) (o : Out ι) (h : o ∈ os) :
    ∃ t, (t, (image o v).map (masked oc.mask)) ∈ expectedFrom oc v k os := by
  induction os generalizing k with
  | nil => cases h
  | cons a os ih =>
    rw [expectedFrom]
    rcases List.mem_cons.1 h with rfl | h
    · exact ⟨_, List.mem_append_left _ (by rw [if_pos (by rw [hf]; exact Nat.mod_one k)]; exact List.mem_singleton.2 rfl)⟩
    · obtain ⟨t, ht⟩ := ih (k + 1) h
      exact ⟨t, List.mem_append_right _ ht⟩

/-- With the default limits, a run in which the wind is calm somewhere leaves a file with a wind speed below the lowest. -/
theorem C156_calm_fails (c : Cfg ι D) (hl : DefaultLimits c) (oc : OutCfg ι) (hm : 0 < oc.minutes) (hmask : oc.mask = none)
    (hd : oc.vars.Nodup) (hv : Name.windSpeed ∈ oc.vars) (hf : oc.freq = 1) (fuel : Nat) (s : State ι) (xs : List (In ι D))
    (os : List (Out ι)) (h : Run.run c fuel s xs = .ok os) (hn : Stamp.Near 18 (xs.length * oc.minutes))
    (ho : ∀ o ∈ os, ∀ v ∈ oc.vars, ∃ d, image o v = .ok d) (o : Out ι) (hmem : o ∈ os) (i : ι) (hcalm : o.wind i = 447 / 1000) :
    ¬ Leaves .single c oc fuel s xs fun _ => True := by
  obtain ⟨fs, h1, -, h3⟩ := C129_files c oc fuel hm hd s xs os h hn ho
  rintro ⟨gs, g1, g2⟩
  rw [C156_files, h1] at g1
  simp only [Prod.mk.injEq, and_true] at g1
  subst g1
  obtain ⟨t, ht⟩ := expected_all oc .windSpeed hf os 0 o hmem
  rw [← expected_from, ← h3 _ hv] at ht
  obtain ⟨r, hr, e⟩ := List.mem_map.1 ht
  simp only [Prod.mk.injEq] at e
  have e2 : r.2 = o.wind := by
    have : (Except.ok r.2 : Except Solar.Err (ι → ℝ)) = .ok (masked oc.mask o.wind) := e.2
    rw [Except.ok.inj this, hmask]
    rfl
  have key := ((g2 .windSpeed trivial (r.1, fun i => Precision.single.cast (r.2 i)) (List.mem_map.2 ⟨r, hr, rfl⟩) i).1
    (fun m hm' => by rw [hmask] at hm'; cases hm')).1 (447 / 1000) (by rw [hl.wind])
  simp only [e2, hcalm] at key
  rw [calm_single] at key
  norm_num at key

/-- Calm air at night. -/
noncomputable def calmIn : In Unit ℝ := { snowyIn 0 with windSpeed := fun _ => 0 }

/-- The configuration of `snowyCfg` with the default limits. -/
noncomputable def calmCfg : Cfg Unit ℝ :=
  { snowyCfg with
    precip := ⟨some 0, none⟩
    sun := { Solar.sampleSetup with solar := { Solar.sampleSetup.solar with lo := some 0, hi := some 800 } } }

theorem calm_default : DefaultLimits calmCfg := ⟨rfl, rfl, rfl, rfl, rfl, rfl, rfl, rfl⟩

theorem calm_sensible : Sensible calmCfg := by
  refine ⟨?_, ?_, ?_, ?_, ?_, ?_, ?_, ?_, ⟨0, rfl, le_refl _⟩, by norm_num [calmCfg, snowyCfg], by norm_num [calmCfg, snowyCfg],
    by norm_num [calmCfg, snowyCfg]⟩ <;>
  · intro a b ha hb
    simp only [calmCfg, snowyCfg, albedoLimits, solarLimits, thermalLimits, Solar.sampleSetup, Option.some.injEq, reduceCtorEq] at ha hb
    try (rw [← ha, ← hb]; norm_num)

theorem calm_sound : Sound calmCfg :=
  ⟨fun h => (by cases h), snowy_sound.model, snowy_sound.tol, snowy_sound.vapor, snowy_sound.airTemp, snowy_sound.grain,
    snowy_sound.decay, snowy_sound.albedo, snowy_sound.dem, snowy_sound.sky⟩

theorem calm_meets : Meets calmCfg calmIn := by
  refine ⟨fun h => ?_, fun _ _ => by simp [calmCfg, snowyCfg, calmIn, snowyIn]⟩
  exact absurd h (lt_irrefl _)

/-- The hypotheses of `C156_default` and `C156_calm_fails` hold of one calm night. -/
theorem calm_run : ∃ N o, Run.run calmCfg N snowyState [calmIn] = .ok [o] ∧ o.wind () = 447 / 1000 := by
  obtain ⟨N, s', o, hst⟩ := step_runs calmCfg calm_sound snowyState calmIn calm_meets
  have h := hst N le_rfl
  refine ⟨N, o, by rw [Run.run, h]; rfl, ?_⟩
  unfold step at h
  simp only at h
  split at h
  · cases h
  · split at h
    · cases h
    · split at h
      · cases h
      · split at h
        · cases h
        · simp only [Except.ok.injEq, Prod.mk.injEq] at h
          obtain ⟨-, rfl⟩ := h
          norm_num [Limits.cut, Solar.clamp, calmCfg, snowyCfg, calmIn]

theorem C156_fails : ¬ C156_full := by
  intro hall
  obtain ⟨N, o, h, hw⟩ := calm_run
  have ho : ∀ a ∈ [o], ∀ v ∈ [Name.windSpeed], ∃ d, image a v = .ok d := by
    intro a _ v hv
    rw [List.mem_singleton.1 hv]
    exact ⟨_, rfl⟩
  have hn : Stamp.Near 18 (([calmIn].length : ℤ) * ((60 : ℕ) : ℤ)) := by unfold Stamp.Near; norm_num
  exact C156_calm_fails calmCfg calm_default ⟨1, 60, [.windSpeed], none⟩ (by norm_num) rfl (by simp) (by simp) rfl N snowyState [calmIn] [o]
    h hn ho o (by simp) () hw
    (hall .single calmCfg ⟨1, 60, [.windSpeed], none⟩ N snowyState [calmIn] [o] calm_sensible (by norm_num) (by simp) snowy_physical h hn ho)

/-- The hypotheses of the other theorems hold of the same night. -/
example : ∃ N, Leaves .single calmCfg ⟨1, 60, [.airTemp, .dew, .percSnow], some fun _ => 1⟩ N snowyState [calmIn] (· ≠ .windSpeed) ∧
    ∃ fs, runFiles .single calmCfg ⟨1, 60, [.airTemp, .dew, .percSnow], some fun _ => 1⟩ N snowyState [calmIn] = (fs, none) ∧
      List.Forall₂ (fun r q => r.1 = q.1 ∧ ∀ i, (∀ m : Unit → ℝ, some (fun _ => 1) = some m → 0 ≤ m i) → r.2 i ≤ q.2 i) (fs .dew) (fs .airTemp) := by
  obtain ⟨N, o, h, -⟩ := calm_run
  have ho : ∀ a ∈ [o], ∀ v ∈ [Name.airTemp, .dew, .percSnow], ∃ d, image a v = .ok d := by
    intro a _ v hv
    simp only [List.mem_cons, List.not_mem_nil, or_false] at hv
    rcases hv with rfl | rfl | rfl <;> exact ⟨_, rfl⟩
  have hn : Stamp.Near 18 (([calmIn].length : ℤ) * ((60 : ℕ) : ℤ)) := by unfold Stamp.Near; norm_num
  exact ⟨N, C156_default .single calmCfg calm_sensible calm_default _ N (by norm_num) (by decide) snowyState snowy_physical _ [o] h hn ho,
    C156_dew .single calmCfg calm_sensible _ N (by norm_num) (by decide) ⟨by simp, by simp⟩ snowyState snowy_physical _ [o] h hn ho⟩

end Verif.DiskFloat
