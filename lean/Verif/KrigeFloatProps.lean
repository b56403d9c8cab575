import Verif.KrigeFloatLemmas

/-!
C153: the kriging weights with rounding. They satisfy the equations of the stations in use up to an error, sum to one up to an
error, and negative weights remain only where they do without rounding.
-/

namespace Verif.KrigeFloat

open Finset
open Verif.Krige (Mem Outcome load drop scatter useFlags cnt)
open Verif.Lu (put Junk)
open Verif.LuFloat (gamma Error Bounded)

variable {u : ℝ} {rnd : ℝ → ℝ}

/-- The bound of the error relative to the distances is small. -/
def Small (u R : ℝ) (nsta : Nat) : Prop := 16 * (gamma u (nsta + 1) * R) ≤ 1

/-- The sizes of the multiplier and of the sum, from the equation of one station and that of the sum. -/
theorem sizes {g R S T mu d : ℝ} (hg : 0 ≤ g) (hR : 1 ≤ R) (hs : 16 * (g * R) ≤ 1) (h0 : 0 ≤ S)
    (hrow : |T + mu - d| ≤ g * R * (S + |mu|)) (hT : |T| ≤ R * S) (hd : 0 ≤ d ∧ d ≤ R) :
    g * (S + |mu|) ≤ 3 * (g * R) * (1 + S) := by
  have hm : |mu| ≤ R + R * S + g * R * (S + |mu|) := by
    have e : mu = (T + mu - d) + (d - T) := by ring
    have h1 := abs_add_le (T + mu - d) (d - T)
    rw [← e] at h1
    have h2 := abs_sub d T
    rw [abs_of_nonneg hd.1] at h2
    linarith [hd.2]
  have hgR : 0 ≤ g * R := mul_nonneg hg (by linarith)
  have hgr : g ≤ g * R := by nlinarith
  have hmu0 := abs_nonneg mu
  have h1 : g * R * |mu| ≤ 1 / 16 * |mu| := mul_le_mul_of_nonneg_right (by linarith) hmu0
  have h2 : g * R * S ≤ 1 / 16 * S := mul_le_mul_of_nonneg_right (by linarith) h0
  have hRS : S ≤ R * S := by nlinarith
  have h3 : 15 * |mu| ≤ 17 * (R * (1 + S)) := by nlinarith
  have h4 : g * (15 * |mu|) ≤ g * (17 * (R * (1 + S))) := mul_le_mul_of_nonneg_left h3 hg
  have h5 : g * S ≤ g * R * S := mul_le_mul_of_nonneg_right hgr h0
  nlinarith

theorem used_le {nsta : Nat} {R : ℝ} {ad : Nat → Nat → ℝ} {w : Nat → ℝ} (had : ∀ m < nsta, ∀ n < nsta, |ad m n| ≤ R) (m : Nat) (hm : m < nsta) :
    |∑ n ∈ range nsta, ad m n * w n| ≤ R * ∑ n ∈ range nsta, |w n| := by
  rw [mul_sum]
  refine (abs_sum_le_sum_abs _ _).trans (sum_le_sum fun n hn => ?_)
  rw [abs_mul]
  exact mul_le_mul_of_nonneg_right (had m hm n (mem_range.1 hn)) (abs_nonneg _)

/-- How the loop ends. -/
theorem loop_near (h : Error u rnd) (mem : Mem ℝ) {R : ℝ} {nsta : Nat} {ad : Nat → Nat → ℝ} {dgrid : Nat → ℝ} (elev : Nat → ℝ)
    (hi : Input R nsta ad dgrid) (fuel : Nat) (flag : Nat → Bool) (hfuel : cnt flag nsta < fuel) :
    match loop rnd mem nsta ad dgrid elev fuel (cnt flag nsta) flag with
    | .weights w => ∃ used : Nat → Prop, ∃ mu, Near (gamma u (nsta + 1)) R nsta ad dgrid 1 used w mu ∧ (∃ m < nsta, used m) ∧
        ∀ n < nsta, w n < 0 → elev n ≤ 0
    | .exit => Small u R nsta → (∃ m < nsta, flag m = true) →
        ∃ used : Nat → Prop, (∃ m < nsta, used m) ∧ ∃ v nu, (nu ≠ 0 ∨ ∃ n < nsta, v n ≠ 0) ∧
          Near (gamma u (nsta + 1)) R nsta ad (fun _ => 0) 0 used v nu
    | .stuck => False := by
  induction fuel generalizing flag with
  | zero => omega
  | succ fuel ih =>
    rw [loop]
    cases hs : LuFloat.lusolv rnd (mem.lu (cnt flag nsta)) (cnt flag nsta + 1)
        (load nsta (cnt flag nsta) ad dgrid flag (mem.a (cnt flag nsta))) with
    | none =>
      intro _ hex
      exact ⟨_, hex, round_none h hi _ flag _ (cnt_le flag nsta) hs⟩
    | some x =>
      have hnear := round_near h hi _ flag _ x (cnt_le flag nsta) hs
      have hdrop := Krige.drop_spec nsta flag elev x
      simp only
      cases hdr : drop nsta flag elev x with
      | none =>
        rw [hdr] at hdrop
        simp only at hdrop ⊢
        have hsc := Krige.scatter_spec nsta flag x mem.w
        have he : ∀ f : Nat → ℝ → ℝ, ∑ n ∈ range nsta, f n (scatter nsta flag x mem.w n) =
            ∑ n ∈ range nsta, f n (if flag n = true then x (cnt flag n) else 0) := fun f =>
          sum_congr rfl fun n hn => by rw [hsc n (mem_range.1 hn)]
        refine ⟨fun m => flag m = true, x (cnt flag nsta), ⟨fun m hm hf => ?_, ?_, fun n hn hf => ?_⟩, round_used h hi _ flag _ x hs,
          fun n hn hw => ?_⟩
        · rw [he (fun n t => ad m n * t), he (fun _ t => |t|)]
          exact hnear.rows m hm hf
        · rw [he (fun _ t => t), he (fun _ t => |t|)]
          exact hnear.sum
        · rw [hsc n hn, if_neg hf]
        · rw [hsc n hn] at hw
          split at hw
          · rename_i hf; exact hdrop n hn hf hw
          · exact absurd hw (lt_irrefl _)
      | some m =>
        rw [hdr] at hdrop
        simp only at hdrop ⊢
        obtain ⟨hm, hf, hneg, -, -⟩ := hdrop
        have hlt := Krige.cnt_lt flag hm hf
        have := ih (put flag m false) (by rw [Krige.cnt_drop flag hm hf]; omega)
        rw [Krige.cnt_drop flag hm hf] at this
        cases hl : loop rnd mem nsta ad dgrid elev fuel (cnt flag nsta - 1) (put flag m false) with
        | weights w => rw [hl] at this; exact this
        | stuck => rw [hl] at this; exact this
        | exit =>
          rw [hl] at this
          intro hsm _
          refine this hsm ?_
          by_contra hc
          -- the only station in use has a negative weight
          have hall : ∀ k ∈ range nsta, k ≠ m → (if flag k = true then x (cnt flag k) else 0) = 0 := by
            intro k hk hkm
            rw [mem_range] at hk
            rw [if_neg]
            intro hfk
            exact hc ⟨k, hk, by unfold put; rw [if_neg hkm, hfk]⟩
          have hsum1 : ∑ n ∈ range nsta, (if flag n = true then x (cnt flag n) else 0) = x (cnt flag m) := by
            rw [sum_eq_single m hall (fun h => absurd (mem_range.2 hm) h), if_pos hf]
          have hsum2 : ∑ n ∈ range nsta, |if flag n = true then x (cnt flag n) else 0| = |x (cnt flag m)| := by
            rw [sum_eq_single m (fun k hk hkm => by rw [hall k hk hkm, abs_zero]) (fun h => absurd (mem_range.2 hm) h), if_pos hf]
          have hrow := hnear.rows m hm hf
          have hT := used_le (w := fun n => if flag n = true then x (cnt flag n) else 0) hi.ad m hm
          have hsum := hnear.sum
          rw [hsum2] at hrow hsum hT
          rw [hsum1] at hsum
          have hb := sizes (LuFloat.gamma_nonneg h (nsta + 1)) hi.one hsm (abs_nonneg _) hrow hT (hi.grid m hm)
          have := hsum.trans hb
          rw [abs_of_neg hneg, abs_of_neg (by linarith : x (cnt flag m) - 1 < 0)] at this
          unfold Small at hsm
          nlinarith

theorem krige_near (h : Error u rnd) (mem : Mem ℝ) {R : ℝ} {nsta : Nat} {ad : Nat → Nat → ℝ} {dgrid : Nat → ℝ} (elev : Nat → ℝ)
    (hi : Input R nsta ad dgrid) :
    match krige rnd mem nsta ad dgrid elev with
    | .weights w => ∃ used : Nat → Prop, ∃ mu, Near (gamma u (nsta + 1)) R nsta ad dgrid 1 used w mu ∧ (∃ m < nsta, used m) ∧
        ∀ n < nsta, w n < 0 → elev n ≤ 0
    | .exit => Small u R nsta → 0 < nsta →
        ∃ used : Nat → Prop, (∃ m < nsta, used m) ∧ ∃ v nu, (nu ≠ 0 ∨ ∃ n < nsta, v n ≠ 0) ∧
          Near (gamma u (nsta + 1)) R nsta ad (fun _ => 0) 0 used v nu
    | .stuck => False := by
  have hall := Krige.cnt_all _ nsta fun n hn => Krige.useFlags_all nsta dgrid mem.flags n hn
  have := loop_near h mem elev hi (nsta + 1) (useFlags nsta dgrid mem.flags) (by omega)
  rw [hall] at this
  unfold krige
  cases hl : loop rnd mem nsta ad dgrid elev (nsta + 1) nsta (useFlags nsta dgrid mem.flags) with
  | weights w => rw [hl] at this; exact this
  | exit =>
    rw [hl] at this
    exact fun hs hpos => this hs ⟨0, hpos, Krige.useFlags_all nsta dgrid mem.flags 0 hpos⟩
  | stuck => rw [hl] at this; exact this

/-- Claimed: no weight is negative. -/
def C153_full : Prop :=
  ∀ (u : ℝ) (rnd : ℝ → ℝ), Error u rnd → ∀ (mem : Mem ℝ) (R : ℝ) (nsta : Nat) (ad : Nat → Nat → ℝ) (dgrid elev w : Nat → ℝ),
    Input R nsta ad dgrid → krige rnd mem nsta ad dgrid elev = .weights w → ∀ n < nsta, 0 ≤ w n

/-- The elimination ends whatever the rounding does. -/
theorem C153_terminates (h : Error u rnd) (mem : Mem ℝ) {R : ℝ} {nsta : Nat} {ad : Nat → Nat → ℝ} {dgrid : Nat → ℝ} (elev : Nat → ℝ)
    (hi : Input R nsta ad dgrid) : krige rnd mem nsta ad dgrid elev ≠ .stuck := by
  intro e
  have := krige_near h mem elev hi
  rw [e] at this
  exact this

/-- A negative weight only stays at stations that are not above sea level: rounding adds none. Missing: stations at or below sea level, as
without rounding (`C56_negative_fails`). -/
theorem C153_nonneg_partial (h : Error u rnd) (mem : Mem ℝ) {R : ℝ} {nsta : Nat} {ad : Nat → Nat → ℝ} {dgrid : Nat → ℝ} (elev w : Nat → ℝ)
    (hi : Input R nsta ad dgrid) (hw : krige rnd mem nsta ad dgrid elev = .weights w) (n : Nat) (hn : n < nsta) (he : 0 < elev n) :
    0 ≤ w n := by
  have := krige_near h mem elev hi
  rw [hw] at this
  obtain ⟨_, _, _, _, hs⟩ := this
  by_contra hc
  exact absurd (hs n hn (not_le.1 hc)) (not_le.2 he)

/-- The weights satisfy the kriging equations of some of the stations up to the error of the solver; the others have weight zero. -/
theorem C153_equations (h : Error u rnd) (mem : Mem ℝ) {R : ℝ} {nsta : Nat} {ad : Nat → Nat → ℝ} {dgrid : Nat → ℝ} (elev w : Nat → ℝ)
    (hi : Input R nsta ad dgrid) (hw : krige rnd mem nsta ad dgrid elev = .weights w) :
    ∃ (used : Nat → Prop) (mu : ℝ), (∃ m < nsta, used m) ∧
      (∀ m < nsta, used m → |∑ n ∈ range nsta, ad m n * w n + mu - dgrid m| ≤
        gamma u (nsta + 1) * R * (∑ n ∈ range nsta, |w n| + |mu|)) ∧
      |∑ n ∈ range nsta, w n - 1| ≤ gamma u (nsta + 1) * (∑ n ∈ range nsta, |w n| + |mu|) ∧
      ∀ n < nsta, ¬ used n → w n = 0 := by
  have := krige_near h mem elev hi
  rw [hw] at this
  obtain ⟨used, mu, hn, hu, -⟩ := this
  exact ⟨used, mu, hu, hn.rows, hn.sum, hn.off⟩

/-- Weights that are not negative sum to one up to `8 gamma R`. -/
theorem C153_sum (h : Error u rnd) (mem : Mem ℝ) {R : ℝ} {nsta : Nat} {ad : Nat → Nat → ℝ} {dgrid : Nat → ℝ} (elev w : Nat → ℝ)
    (hi : Input R nsta ad dgrid) (hs : Small u R nsta) (hw : krige rnd mem nsta ad dgrid elev = .weights w)
    (hpos : ∀ n < nsta, 0 ≤ w n) : |∑ n ∈ range nsta, w n - 1| ≤ 8 * (gamma u (nsta + 1) * R) := by
  have := krige_near h mem elev hi
  rw [hw] at this
  obtain ⟨used, mu, hn, ⟨m, hm, hu⟩, -⟩ := this
  have habs : ∑ n ∈ range nsta, |w n| = ∑ n ∈ range nsta, w n :=
    sum_congr rfl fun n hn => abs_of_nonneg (hpos n (mem_range.1 hn))
  have hrow := hn.rows m hm hu
  have hsum := hn.sum
  have hT := used_le (w := w) hi.ad m hm
  rw [habs] at hrow hsum hT
  have h0 : 0 ≤ ∑ n ∈ range nsta, w n := sum_nonneg fun n hn => hpos n (mem_range.1 hn)
  have hg := LuFloat.gamma_nonneg h (nsta + 1)
  have hb := hsum.trans (sizes hg hi.one hs h0 hrow hT (hi.grid m hm))
  have hgR : 0 ≤ gamma u (nsta + 1) * R := mul_nonneg hg (by linarith [hi.one])
  unfold Small at hs
  generalize gamma u (nsta + 1) * R = e at *
  generalize ∑ n ∈ range nsta, w n = S at *
  have h1 := le_abs_self (S - 1)
  have hS : S ≤ 5 / 3 := by nlinarith
  calc |S - 1| ≤ 3 * e * (1 + S) := hb
    _ ≤ 3 * e * (8 / 3) := mul_le_mul_of_nonneg_left (by linarith) (by linarith)
    _ = 8 * e := by ring

/-- The estimate of a cell stays within the range of the values of the stations, up to the same relative error. -/
theorem C153_range (h : Error u rnd) (mem : Mem ℝ) {R : ℝ} {nsta : Nat} {ad : Nat → Nat → ℝ} {dgrid : Nat → ℝ} (elev w v : Nat → ℝ)
    (hi : Input R nsta ad dgrid) (hs : Small u R nsta) (hw : krige rnd mem nsta ad dgrid elev = .weights w)
    (he : ∀ n < nsta, 0 < elev n) (lo hi' : ℝ) (hv : ∀ n < nsta, lo ≤ v n ∧ v n ≤ hi') :
    lo - 8 * (gamma u (nsta + 1) * R) * |lo| ≤ ∑ n ∈ range nsta, w n * v n ∧
    ∑ n ∈ range nsta, w n * v n ≤ hi' + 8 * (gamma u (nsta + 1) * R) * |hi'| := by
  have hpos := fun n hn => C153_nonneg_partial h mem elev w hi hw n hn (he n hn)
  have hsum := C153_sum h mem elev w hi hs hw hpos
  have key : ∀ c : ℝ, |(∑ n ∈ range nsta, w n) * c - c| ≤ 8 * (gamma u (nsta + 1) * R) * |c| := fun c => by
    have e : (∑ n ∈ range nsta, w n) * c - c = (∑ n ∈ range nsta, w n - 1) * c := by ring
    rw [e, abs_mul]
    exact mul_le_mul_of_nonneg_right hsum (abs_nonneg _)
  have h1 : (∑ n ∈ range nsta, w n) * lo ≤ ∑ n ∈ range nsta, w n * v n := by
    rw [sum_mul]
    exact sum_le_sum fun n hn => mul_le_mul_of_nonneg_left (hv n (mem_range.1 hn)).1 (hpos n (mem_range.1 hn))
  have h2 : ∑ n ∈ range nsta, w n * v n ≤ (∑ n ∈ range nsta, w n) * hi' := by
    rw [sum_mul]
    exact sum_le_sum fun n hn => mul_le_mul_of_nonneg_left (hv n (mem_range.1 hn)).2 (hpos n (mem_range.1 hn))
  have k1 := (abs_le.1 (key lo)).1
  have k2 := (abs_le.1 (key hi')).2
  exact ⟨by linarith, by linarith⟩

/-- The process ends only when the equations of some stations are close to having two solutions: some numbers, not all zero, nearly satisfy
them with right-hand sides zero. -/
theorem C153_exit (h : Error u rnd) (mem : Mem ℝ) {R : ℝ} {nsta : Nat} {ad : Nat → Nat → ℝ} {dgrid : Nat → ℝ} (elev : Nat → ℝ)
    (hi : Input R nsta ad dgrid) (hs : Small u R nsta) (hpos : 0 < nsta) (hx : krige rnd mem nsta ad dgrid elev = .exit) :
    ∃ used : Nat → Prop, (∃ m < nsta, used m) ∧ ∃ (v : Nat → ℝ) (nu : ℝ), (nu ≠ 0 ∨ ∃ n < nsta, v n ≠ 0) ∧
      (∀ n < nsta, ¬ used n → v n = 0) ∧
      (∀ m < nsta, used m → |∑ n ∈ range nsta, ad m n * v n + nu| ≤ gamma u (nsta + 1) * R * (∑ n ∈ range nsta, |v n| + |nu|)) ∧
      |∑ n ∈ range nsta, v n| ≤ gamma u (nsta + 1) * (∑ n ∈ range nsta, |v n| + |nu|) := by
  have := krige_near h mem elev hi
  rw [hx] at this
  obtain ⟨used, hu, v, nu, hne, hn⟩ := this hs hpos
  refine ⟨used, hu, v, nu, hne, hn.off, fun m hm hf => ?_, ?_⟩
  · simpa only [sub_zero] using hn.rows m hm hf
  · simpa only [sub_zero] using hn.sum

/-- In double precision, with at most 10 stations and distances up to 1000 km (in metres), the weights sum to one within `8 * 10 ^ (-5)`. -/
theorem C153_double (mem : Mem ℝ) {nsta : Nat} {ad : Nat → Nat → ℝ} {dgrid : Nat → ℝ} (elev w : Nat → ℝ) (hn : nsta ≤ 10)
    (hi : Input (10 ^ 6) nsta ad dgrid) (hw : krige (IdwFloat.binary 53) mem nsta ad dgrid elev = .weights w)
    (he : ∀ n < nsta, 0 < elev n) : |∑ n ∈ range nsta, w n - 1| ≤ 8 / 10 ^ 5 := by
  have hg := (LuFloat.C152_double (nsta + 1)).1 (by omega)
  have hs : Small ((1 / 2) ^ 53) (10 ^ 6) nsta := by unfold Small; linarith
  refine (C153_sum LuFloat.error_double mem elev w hi hs hw
    fun n hn => C153_nonneg_partial LuFloat.error_double mem elev w hi hw n hn (he n hn)).trans ?_
  linarith

/-- When no station is above sea level nothing is dropped: the first solution is the result. -/
theorem krige_low (h : Error u rnd) (mem : Mem ℝ) {R : ℝ} {nsta : Nat} {ad : Nat → Nat → ℝ} {dgrid : Nat → ℝ} (elev : Nat → ℝ)
    (hi : Input R nsta ad dgrid) (he : ∀ n < nsta, elev n ≤ 0) :
    (∃ w mu, krige rnd mem nsta ad dgrid elev = .weights w ∧ Near (gamma u (nsta + 1)) R nsta ad dgrid 1 (fun _ => True) w mu) ∨
    (∃ v nu, (nu ≠ 0 ∨ ∃ n < nsta, v n ≠ 0) ∧ Near (gamma u (nsta + 1)) R nsta ad (fun _ => 0) 0 (fun _ => True) v nu) := by
  have hu := fun n hn => Krige.useFlags_all nsta dgrid mem.flags n hn
  have hall := Krige.cnt_all _ nsta hu
  unfold krige
  rw [loop]
  generalize useFlags nsta dgrid mem.flags = flag at hu hall
  cases hs : LuFloat.lusolv rnd (mem.lu nsta) (nsta + 1) (load nsta nsta ad dgrid flag (mem.a nsta)) with
  | none =>
    right
    obtain ⟨v, nu, hne, hn⟩ := round_none h hi (mem.lu nsta) flag (mem.a nsta) (cnt_le flag nsta) (by rw [hall]; exact hs)
    exact ⟨v, nu, hne, ⟨fun m hm _ => hn.rows m hm (hu m hm), hn.sum, fun n _ hc => absurd trivial hc⟩⟩
  | some x =>
    left
    have hnear := round_near h hi (mem.lu nsta) flag (mem.a nsta) x (cnt_le flag nsta) (by rw [hall]; exact hs)
    have hdrop := Krige.drop_spec nsta flag elev x
    cases hdr : drop nsta flag elev x with
    | some m =>
      rw [hdr] at hdrop
      obtain ⟨hm, -, -, hpos, -⟩ := hdrop
      exact absurd (he m hm) (not_le.2 hpos)
    | none =>
      simp only [hdr]
      refine ⟨_, x (cnt flag nsta), rfl, ?_⟩
      have hsc := Krige.scatter_spec nsta flag x mem.w
      have hf : ∀ f : Nat → ℝ → ℝ, ∑ n ∈ range nsta, f n (scatter nsta flag x mem.w n) =
          ∑ n ∈ range nsta, f n (if flag n = true then x (cnt flag n) else 0) := fun f =>
        sum_congr rfl fun n hn => by rw [hsc n (mem_range.1 hn)]
      refine ⟨fun m hm _ => ?_, ?_, fun n _ hc => absurd trivial hc⟩
      · rw [hf (fun n t => ad m n * t), hf (fun _ t => |t|)]
        exact hnear.rows m hm (hu m hm)
      · rw [hf (fun _ t => t), hf (fun _ t => |t|)]
        exact hnear.sum

/-- Three stations at (0,3), (0,-3), (-4,0). -/
noncomputable def tri (m n : Nat) : ℝ := if m = n then 0 else if m + n = 1 then 6 else 5

/-- A cell at (4,0). -/
noncomputable def triCell (m : Nat) : ℝ := if m = 2 then 8 else 5

theorem tri_input : Input 8 3 tri triCell := by
  refine ⟨by norm_num, fun m _ n _ => ?_, fun m _ => ?_⟩
  · unfold tri; split_ifs <;> norm_num
  · unfold triCell; split_ifs <;> norm_num

/-- The equations of the three stations, up to `e`. -/
theorem tri_solve {w0 w1 w2 mu a c d e : ℝ} (h0 : |6 * w1 + 5 * w2 + mu - a| ≤ e) (h1 : |6 * w0 + 5 * w2 + mu - a| ≤ e)
    (h2 : |5 * w0 + 5 * w1 + mu - c| ≤ e) (h3 : |w0 + w1 + w2 - d| ≤ e) :
    |w0 - (10 * d + 2 * c - 2 * a) / 28| ≤ 2 * e ∧ |w1 - (10 * d + 2 * c - 2 * a) / 28| ≤ 2 * e ∧
    |w2 - (4 * d - 2 * c + 2 * a) / 14| ≤ 3 * e ∧ |mu - (c - 5 * (10 * d + 2 * c - 2 * a) / 14)| ≤ 7 * e := by
  rw [abs_le] at h0 h1 h2 h3
  refine ⟨?_, ?_, ?_, ?_⟩ <;> rw [abs_le] <;> constructor <;> linarith [h0.1, h0.2, h1.1, h1.2, h2.1, h2.2, h3.1, h3.2]

theorem size {x y e : ℝ} (h : |x - y| ≤ e) : |x| ≤ |y| + e := by
  have := abs_add_le (x - y) y
  rw [sub_add_cancel] at this
  linarith

/-- A negative weight stays in double precision: with no station above sea level the third station gets less than `- 1 / 8`. -/
theorem C153_negative_fails (mem : Mem ℝ) (elev : Nat → ℝ) (he : ∀ n < 3, elev n ≤ 0) :
    ∃ w, krige (IdwFloat.binary 53) mem 3 tri triCell elev = .weights w ∧ w 2 < - 1 / 8 := by
  have hg := (LuFloat.C152_double 4).1 (by norm_num)
  have rows : ∀ {rhs : Nat → ℝ} {one : ℝ} {w : Nat → ℝ} {mu : ℝ}, Near (gamma ((1 / 2) ^ 53) 4) 8 3 tri rhs one (fun _ => True) w mu →
      rhs 1 = rhs 0 → 
      let N := |w 0| + |w 1| + |w 2| + |mu|
      0 ≤ N ∧ |6 * w 1 + 5 * w 2 + mu - rhs 0| ≤ N / 10 ^ 9 ∧ |6 * w 0 + 5 * w 2 + mu - rhs 0| ≤ N / 10 ^ 9 ∧
      |5 * w 0 + 5 * w 1 + mu - rhs 2| ≤ N / 10 ^ 9 ∧ |w 0 + w 1 + w 2 - one| ≤ N / 10 ^ 9 := by
    intro rhs one w mu hn hr N
    have hN : 0 ≤ N := by positivity
    have hgN := mul_le_mul_of_nonneg_right hg hN
    have r0 := hn.rows 0 (by norm_num) trivial
    have r1 := hn.rows 1 (by norm_num) trivial
    have r2 := hn.rows 2 (by norm_num) trivial
    have r3 := hn.sum
    simp only [sum_range_succ, sum_range_zero, zero_add] at r0 r1 r2 r3
    have t00 : tri 0 0 = 0 := by norm_num [tri]
    have t01 : tri 0 1 = 6 := by norm_num [tri]
    have t02 : tri 0 2 = 5 := by norm_num [tri]
    have t10 : tri 1 0 = 6 := by norm_num [tri]
    have t11 : tri 1 1 = 0 := by norm_num [tri]
    have t12 : tri 1 2 = 5 := by norm_num [tri]
    have t20 : tri 2 0 = 5 := by norm_num [tri]
    have t21 : tri 2 1 = 5 := by norm_num [tri]
    have t22 : tri 2 2 = 0 := by norm_num [tri]
    rw [t00, t01, t02, zero_mul, zero_add] at r0
    rw [t10, t11, t12, zero_mul, add_zero, hr] at r1
    rw [t20, t21, t22, zero_mul, add_zero] at r2
    refine ⟨hN, r0.trans ?_, r1.trans ?_, r2.trans ?_, r3.trans ?_⟩ <;> linarith
  rcases krige_low LuFloat.error_double mem elev tri_input he with ⟨w, mu, hw, hn⟩ | ⟨v, nu, hne, hn⟩
  · refine ⟨w, hw, ?_⟩
    obtain ⟨hN, r0, r1, r2, r3⟩ := rows hn (by norm_num [triCell])
    generalize hNe : |w 0| + |w 1| + |w 2| + |mu| = N at *
    have c0 : triCell 0 = 5 := by norm_num [triCell]
    have c2 : triCell 2 = 8 := by norm_num [triCell]
    rw [c0] at r0 r1
    rw [c2] at r2
    obtain ⟨s0, s1, s2, s3⟩ := tri_solve r0 r1 r2 r3
    have z0 := size s0
    have z1 := size s1
    have z2 := size s2
    have z3 := size s3
    norm_num at z0 z1 z2 z3
    have := (abs_le.1 s2).2
    linarith
  · exfalso
    obtain ⟨hN, r0, r1, r2, r3⟩ := rows hn rfl
    obtain ⟨s0, s1, s2, s3⟩ := tri_solve r0 r1 r2 r3
    have z0 := size s0
    have z1 := size s1
    have z2 := size s2
    have z3 := size s3
    norm_num at z0 z1 z2 z3
    have p0 := abs_nonneg (v 0)
    have p1 := abs_nonneg (v 1)
    have p2 := abs_nonneg (v 2)
    have p3 := abs_nonneg nu
    rcases hne with hne | ⟨n, hn, hne⟩
    · have := abs_pos.2 hne
      linarith
    · have := abs_pos.2 hne
      interval_cases n <;> linarith

theorem C153_fails : ¬ C153_full := by
  intro h
  obtain ⟨w, hw, hneg⟩ := C153_negative_fails ⟨fun _ _ _ => 0, fun _ => ⟨fun _ => 0, fun _ => 0, 0⟩, fun _ => false, fun _ => 0⟩ (fun _ => 0)
    (fun _ _ => le_refl _)
  have := h _ _ LuFloat.error_double _ 8 3 tri triCell _ w tri_input hw 2 (by norm_num)
  linarith

/-- The hypotheses of `C153_double` and of the others can be met: two stations 6 m apart and a cell 1 m from the first one. -/
noncomputable def pair (m n : Nat) : ℝ := if m = n then 0 else 6

noncomputable def pairCell (m : Nat) : ℝ := if m = 0 then 1 else 5

theorem pair_input {R : ℝ} (hR : 6 ≤ R) : Input R 2 pair pairCell := by
  refine ⟨by linarith, fun m _ n _ => ?_, fun m _ => ?_⟩
  · unfold pair; split_ifs <;> norm_num <;> linarith
  · unfold pairCell; split_ifs <;> constructor <;> linarith

/-- For two stations apart the weights exist in double precision, whatever the elevations. -/
theorem pair_weights (mem : Mem ℝ) (elev : Nat → ℝ) : ∃ w, krige (IdwFloat.binary 53) mem 2 pair pairCell elev = .weights w := by
  have hg := (LuFloat.C152_double 3).1 (by norm_num)
  have hs : Small ((1 / 2) ^ 53) 6 2 := by unfold Small; linarith
  cases hk : krige (IdwFloat.binary 53) mem 2 pair pairCell elev with
  | weights w => exact ⟨w, rfl⟩
  | stuck => exact absurd hk (C153_terminates LuFloat.error_double mem elev (pair_input (R := 6) le_rfl))
  | exit =>
    exfalso
    obtain ⟨used, ⟨m, hm, hu⟩, v, nu, hne, off, r, s⟩ := C153_exit LuFloat.error_double mem elev (pair_input (R := 6) le_rfl) hs (by norm_num) hk
    have p00 : pair 0 0 = 0 := by norm_num [pair]
    have p01 : pair 0 1 = 6 := by norm_num [pair]
    have p10 : pair 1 0 = 6 := by norm_num [pair]
    have p11 : pair 1 1 = 0 := by norm_num [pair]
    have r0 := r 0 (by norm_num)
    have r1 := r 1 (by norm_num)
    have o0 := off 0 (by norm_num)
    have o1 := off 1 (by norm_num)
    simp only [sum_range_succ, sum_range_zero, zero_add, p00, p01, p10, p11, zero_mul, add_zero] at r0 r1 s
    have hN : 0 ≤ |v 0| + |v 1| + |nu| := by positivity
    have hgN := mul_le_mul_of_nonneg_right hg hN
    have hne' : 0 < |v 0| + |v 1| + |nu| := by
      rcases hne with hne | ⟨n, hn, hne⟩
      · have := abs_pos.2 hne; positivity
      · have := abs_pos.2 hne
        interval_cases n <;> positivity
    generalize hNe : |v 0| + |v 1| + |nu| = N at *
    have b : ∀ x y : ℝ, |x| ≤ y → -y ≤ x ∧ x ≤ y := fun x y h => abs_le.1 h
    have s' := b _ _ s
    by_cases h0 : used 0 <;> by_cases h1 : used 1
    · have a0 := b _ _ (r0 h0)
      have a1 := b _ _ (r1 h1)
      have q0 : |v 0| ≤ N / 10 ^ 9 := abs_le.2 ⟨by linarith [a0.1, a1.1], by linarith [a0.1, a1.1]⟩
      have q1 : |v 1| ≤ N / 10 ^ 9 := abs_le.2 ⟨by linarith, by linarith⟩
      have q2 : |nu| ≤ N / 10 ^ 8 := abs_le.2 ⟨by linarith, by linarith⟩
      linarith
    · have a0 := b _ _ (r0 h0)
      rw [o1 h1] at a0 s' hNe
      have q0 : |v 0| ≤ N / 10 ^ 9 := abs_le.2 ⟨by linarith, by linarith⟩
      have q2 : |nu| ≤ N / 10 ^ 8 := abs_le.2 ⟨by linarith, by linarith⟩
      rw [abs_zero] at hNe
      linarith
    · have a1 := b _ _ (r1 h1)
      rw [o0 h0] at a1 s' hNe
      have q0 : |v 1| ≤ N / 10 ^ 9 := abs_le.2 ⟨by linarith, by linarith⟩
      have q2 : |nu| ≤ N / 10 ^ 8 := abs_le.2 ⟨by linarith, by linarith⟩
      rw [abs_zero] at hNe
      linarith
    · interval_cases m
      · exact h0 hu
      · exact h1 hu

example (mem : Mem ℝ) : ∃ w, krige (IdwFloat.binary 53) mem 2 pair pairCell (fun _ => 100) = .weights w ∧ 0 ≤ w 0 ∧ 0 ≤ w 1 ∧
    |∑ n ∈ range 2, w n - 1| ≤ 8 / 10 ^ 5 := by
  obtain ⟨w, hw⟩ := pair_weights mem (fun _ => 100)
  have hi := pair_input (R := 6) le_rfl
  exact ⟨w, hw, C153_nonneg_partial LuFloat.error_double mem _ w hi hw 0 (by norm_num) (by norm_num),
    C153_nonneg_partial LuFloat.error_double mem _ w hi hw 1 (by norm_num) (by norm_num),
    C153_double mem _ w (by norm_num) (pair_input (by norm_num)) hw (fun _ _ => by norm_num)⟩

end Verif.KrigeFloat
