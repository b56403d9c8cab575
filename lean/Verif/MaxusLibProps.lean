import Verif.MaxusLib
import Verif.WindowProps
import Verif.WindProps
import Mathlib.Data.List.TakeWhile

/-!
C131: the library of upwind slopes serves every wind direction with the slopes of the nearest direction.
-/

namespace Verif.MaxusLib
open Verif.Window Verif.Wind

variable {α c : Type}

/-! ### Specification -/

/-- `d` is a direction of the list, and none is nearer to `az`, going around the circle. -/
def Nearest (ds : List Rat) (az : ℝ) (d : Rat) : Prop :=
  d ∈ ds ∧ ∃ m : ℤ, ∀ d' ∈ ds, ∀ m' : ℤ, |az - ((d : ℝ) + 360 * m)| ≤ |az - ((d' : ℝ) + 360 * m')|

/-! ### Lemmas -/

theorem directions_eq (inc q : Nat) (hi : 0 < inc) (hq : 360 = inc * q) :
    directions inc = (List.range q).map fun k : Nat => (k : Rat) * inc := by
  unfold directions arange
  have h0 : (inc : Rat) ≠ 0 := by exact_mod_cast hi.ne'
  have : ((360 : Rat) - 0) / inc = ((q : ℤ) : Rat) := by
    rw [sub_zero, div_eq_iff h0]
    have : (360 : Rat) = inc * q := by exact_mod_cast hq
    rw [this]; push_cast; ring
  rw [this, Int.ceil_intCast]
  simp

theorem fillFrom_eq (ds : List Rat) (f : Rat → α) (rest : List Rat) :
    ∀ (done : List (Option α)) (more : List (Option α)) (l : Lib α), l.images = done ++ more → rest.length ≤ more.length →
      (fillFrom ds f done.length rest l).images = done ++ rest.map (fun d => some (f d)) ++ more.drop rest.length ∧
      (fillFrom ds f done.length rest l).dirs = if rest = [] then l.dirs else ds.map some := by
  induction rest with
  | nil => intro done more l h _; exact ⟨by rw [fillFrom, h]; simp, by rw [fillFrom]; simp⟩
  | cons d rest ih =>
    intro done more l h hl
    cases more with
    | nil => simp at hl
    | cons m more =>
      have e : (output ds l done.length (f d)).images = (done ++ [some (f d)]) ++ more := by
        unfold output
        simp only
        rw [h, List.set_append_right _ _ (le_refl _), Nat.sub_self, List.set_cons_zero, List.append_assoc]
        rfl
      have := ih (done ++ [some (f d)]) more (output ds l done.length (f d)) e (by simpa using hl)
      rw [List.length_append, List.length_singleton] at this
      rw [fillFrom]
      refine ⟨?_, ?_⟩
      · rw [this.1]; simp
      · rw [this.2, if_neg (List.cons_ne_nil _ _)]
        split <;> rfl

theorem maxus_eq (inc : Nat) (f : Rat → α) (j : Nat) :
    (maxus inc f j).images = ((directions inc).take j).map (fun d => some (f d)) ++
      List.replicate ((directions inc).length - j) none ∧
    (maxus inc f j).dirs = if (directions inc).take j = [] then List.replicate (directions inc).length none else (directions inc).map some := by
  have := fillFrom_eq (directions inc) f ((directions inc).take j) [] (List.replicate (directions inc).length none) (initLib (directions inc))
    rfl (by simp)
  refine ⟨?_, this.2⟩
  have h1 := this.1
  rw [List.length_take, List.drop_replicate, List.nil_append] at h1
  have e : (directions inc).length - min j (directions inc).length = (directions inc).length - j := by omega
  rw [e] at h1
  exact h1

theorem directions_length {inc : Nat} (hi : 0 < inc) : ((directions inc).length : ℤ) = ⌈(360 : Rat) / inc⌉ := by
  unfold directions arange
  rw [List.length_map, List.length_range, sub_zero]
  refine Int.toNat_of_nonneg ?_
  have : (0 : Rat) ≤ 360 / inc := by positivity
  exact Int.ceil_nonneg this

/-- The index that the model finds. -/
theorem index_nearest (inc : Nat) (hi : 0 < inc) (hdvd : inc ∣ 360) (az : ℝ) (h0 : 0 ≤ az) (h1 : az < 360) :
    ∃ i d, (directions inc)[i]? = some d ∧ Nearest (directions inc) az d ∧
      maxusIndex ((directions inc).map fun d : Rat => (d : ℝ)) (dirRound (nstep (directions inc).length) az) = some i := by
  obtain ⟨q, hq⟩ := hdvd
  have hqp : 0 < q := by
    rcases Nat.eq_zero_or_pos q with rfl | h
    · omega
    · exact h
  have hds := directions_eq inc q hi hq
  have hlen : (directions inc).length = q := by rw [hds]; simp
  have hstep : (nstep q : ℝ) = inc := by
    unfold nstep
    have : (q : ℝ) ≠ 0 := by exact_mod_cast hqp.ne'
    rw [div_eq_iff this]
    exact_mod_cast hq
  obtain ⟨k, hk, e, m, hm1, hm2⟩ := C59_nearest (K := ℝ) q hqp az h0 h1
  obtain ⟨k', hk', e', hidx⟩ := C59_lookup (K := ℝ) q hqp az h0 h1
  have hkk : k' = k := by
    have hi' : (inc : ℝ) ≠ 0 := by exact_mod_cast hi.ne'
    have : (k' : ℝ) * nstep q = k * nstep q := by rw [← e', ← e]
    rw [hstep] at this
    exact_mod_cast mul_right_cancel₀ hi' this
  subst hkk
  refine ⟨k', (k' : Rat) * inc, ?_, ⟨?_, m, ?_⟩, ?_⟩
  · rw [hds]; simp [hk]
  · rw [hds]; exact List.mem_map.2 ⟨k', List.mem_range.2 hk, rfl⟩
  · intro d' hd' m'
    rw [hds] at hd'
    obtain ⟨b, -, rfl⟩ := List.mem_map.1 hd'
    have := hm2 ((b : ℤ) + q * m')
    rw [e, hstep] at this
    push_cast at this ⊢
    have e3 : ((b : ℝ) + q * m') * inc = b * inc + 360 * m' := by
      have : (360 : ℝ) = inc * q := by exact_mod_cast hq
      rw [this]; ring
    rw [e3] at this
    exact this
  · rw [hlen, hds, List.map_map]
    have : ((fun d : Rat => (d : ℝ)) ∘ fun k : Nat => (k : Rat) * inc) = fun k : Nat => (k : ℝ) * nstep q := by
      funext k
      simp [hstep]
    rw [this]
    exact hidx

/-! ### What is true -/

/-- The script that is not interrupted writes every direction with its own image. -/
theorem C131_complete (inc : Nat) (f : Rat → α) (j : Nat) (hj : (directions inc).length ≤ j) (hne : directions inc ≠ []) :
    (maxus inc f j).dirs = (directions inc).map some ∧ (maxus inc f j).images = (directions inc).map fun d => some (f d) := by
  obtain ⟨h1, h2⟩ := maxus_eq inc f j
  rw [List.take_of_length_le hj] at h1 h2
  rw [if_neg hne] at h2
  refine ⟨h2, ?_⟩
  rw [h1, show (directions inc).length - j = 0 by omega]
  simp

/-- With an increment that divides the circle, a cell gets, for any wind direction, the slope of the nearest direction
of the library. -/
theorem C131_lookup_partial (inc : Nat) (hi : 0 < inc) (hdvd : inc ∣ 360) (f : Rat → α) (get : α → c → Rat) (j : Nat)
    (hj : (directions inc).length ≤ j) (i : c) (az : ℝ) (h0 : 0 ≤ az) (h1 : az < 360) :
    ∃ d, Nearest (directions inc) az d ∧
      cellMaxus (directions inc) (column get (maxus inc f j) i) az = some (some (get (f d) i)) := by
  obtain ⟨k, d, hd, hn, hidx⟩ := index_nearest inc hi hdvd az h0 h1
  refine ⟨d, hn, ?_⟩
  have hne : directions inc ≠ [] := by intro h; rw [h] at hd; simp at hd
  unfold cellMaxus column
  rw [hidx, (C131_complete inc f j hj hne).2]
  simp [hd]

/-- The same for the library averaged over a window: the mean of the slopes at the directions at most half a window
from the nearest direction. Missing: directions whose window reaches north (C65), other widths, other increments. -/
theorem C131_windowed_partial (inc : Nat) (hi : 0 < inc) (hi2 : inc < 360) (hdvd : inc ∣ 360) (w : Rat) (hw : ∃ h : Nat, w / 2 = h * inc)
    (hw360 : w < 720) (f : Rat → c → Rat) (i : c) (az : ℝ) (h0 : 0 ≤ az) (h1 : az < 360) :
    ∃ d out, Nearest (directions inc) az d ∧ windower (directions inc) w ((directions inc).map fun d => f d i) = some out ∧
      (d + w / 2 < 360 → ∃ picked v, IsMean picked v ∧ cellMaxus (directions inc) out az = some v ∧
        Selected (directions inc) (Window.Within w d) ((directions inc).map fun d => f d i) picked) := by
  obtain ⟨k, d, hd, hn, hidx⟩ := index_nearest inc hi hdvd az h0 h1
  obtain ⟨out, ho, -, h⟩ := C65_mean_partial inc hi hi2 hdvd w hw hw360 ((directions inc).map fun d => f d i)
  refine ⟨d, out, hn, ho, fun hlim => ?_⟩
  obtain ⟨picked, v, hv, hm, hs⟩ := h k d hd hlim
  refine ⟨picked, v, hm, ?_, hs⟩
  unfold cellMaxus
  rw [hidx]
  exact hv

/-- The full claim: the same for every increment that the script accepts, at any time it may be stopped. -/
def C131_full : Prop := ∀ (inc : Nat), 0 < inc → inc < 360 → ∀ (f : Rat → Unit → Rat) (j : Nat), 1 ≤ j → ∀ az : ℝ, 0 ≤ az → az < 360 →
  ∃ d, Nearest (directions inc) az d ∧
    cellMaxus (directions inc) (column id (maxus inc f j) ()) az = some (some (f d ()))

/-- With an increment that does not divide the circle there are wind directions for which the model does not find an
image and aborts. -/
theorem C131_increment_fails (inc : Nat) (hi : 0 < inc) (hi2 : inc < 360) (hdvd : ¬ inc ∣ 360) :
    ∃ az : ℝ, 0 ≤ az ∧ az < 360 ∧ ∀ col, cellMaxus (directions inc) col az = none := by
  set n := (directions inc).length with hn
  have hlen := directions_length hi
  rw [← hn] at hlen
  have hir : (0 : Rat) < inc := by exact_mod_cast hi
  have h1 : (360 : Rat) / inc ≤ n := by
    have := Int.le_ceil ((360 : Rat) / inc)
    rw [← hlen] at this
    exact_mod_cast this
  have h2 : (360 : Rat) < n * inc := by
    refine lt_of_le_of_ne ((div_le_iff₀ hir).1 h1) fun e => hdvd ⟨n, ?_⟩
    have : (360 : Rat) = ((inc * n : ℕ) : Rat) := by rw [e]; push_cast; ring
    exact_mod_cast this
  have hn2 : 2 ≤ n := by
    by_contra hc
    have : (n : Rat) ≤ 1 := by exact_mod_cast (by omega : n ≤ 1)
    have h3 : (inc : Rat) < 360 := by exact_mod_cast hi2
    nlinarith
  have hnr : (0 : ℝ) < n := by exact_mod_cast (by omega : 0 < n)
  have h2r : (360 : ℝ) < n * inc := by exact_mod_cast h2
  have hs : (nstep n : ℝ) < inc := by unfold nstep; rw [div_lt_iff₀ hnr]; linarith
  have hs0 : (0 : ℝ) < nstep n := by unfold nstep; positivity
  have hs360 : (nstep n : ℝ) < 360 := by
    unfold nstep
    rw [div_lt_iff₀ hnr]
    have : (2 : ℝ) ≤ n := by exact_mod_cast hn2
    nlinarith
  refine ⟨nstep n, hs0.le, hs360, fun col => ?_⟩
  have hr : dirRound (nstep n) (nstep n) = (nstep n : ℝ) := by
    unfold dirRound
    have : ⌈((nstep n : ℝ) - nstep n / 2) / nstep n⌉ = 1 := by
      have : ((nstep n : ℝ) - nstep n / 2) / nstep n = 1 / 2 := by field_simp; ring
      rw [this, Int.ceil_eq_iff]
      norm_num
    simp only [this, Int.cast_one, one_mul]
    rw [if_neg (not_lt.2 hs0.le), if_neg hs360.ne]
  unfold cellMaxus
  rw [← hn, hr]
  have : maxusIndex ((directions inc).map fun d : Rat => (d : ℝ)) (nstep n : ℝ) = none := by
    unfold maxusIndex
    rw [List.findIdx?_eq_none_iff]
    intro x hx
    obtain ⟨d, hd, rfl⟩ := List.mem_map.1 hx
    obtain ⟨k, hk, -⟩ := (mem_directions hi).1 hd
    simp only [decide_eq_false_iff_not]
    intro e
    rw [hk] at e
    have e' : (k : ℝ) * inc = nstep n := by rw [← e]; push_cast; ring
    rcases Nat.eq_zero_or_pos k with rfl | hk0
    · simp only [Nat.cast_zero, zero_mul] at e'
      linarith
    · have : (1 : ℝ) ≤ k := by exact_mod_cast hk0
      have hir' : (0 : ℝ) < inc := by exact_mod_cast hi
      nlinarith
  rw [this]
  rfl

/-- A script that is stopped leaves a file with all directions and the shape of a complete one, but without the images
that were not reached; the model reads fill values for them. -/
theorem C131_interrupted_fails (inc : Nat) (hi : 0 < inc) (hdvd : inc ∣ 360) (f : Rat → α) (get : α → c → Rat) (j N : Nat) (h1 : 1 ≤ j)
    (hj : j < (directions inc).length) (hN : (directions inc).length ≤ N) (i : c) :
    (maxus inc f j).dirs = (maxus inc f N).dirs ∧ (maxus inc f j).images.length = (maxus inc f N).images.length ∧
      (∃ az, 0 ≤ az ∧ az < 360 ∧ cellMaxus (directions inc) (column get (maxus inc f j) i) az = some none) ∧
      ∀ az, 0 ≤ az → az < 360 → cellMaxus (directions inc) (column get (maxus inc f j) i) az ≠
        cellMaxus (directions inc) (column get (maxus inc f N) i) az →
          cellMaxus (directions inc) (column get (maxus inc f j) i) az = some none := by
  have hne : directions inc ≠ [] := by intro h; rw [h] at hj; simp at hj
  obtain ⟨a1, a2⟩ := maxus_eq inc f j
  obtain ⟨b1, b2⟩ := C131_complete inc f N hN hne
  have hne' : (directions inc).take j ≠ [] := by
    intro h
    rcases List.take_eq_nil_iff.1 h with h | h
    · omega
    · exact hne h
  rw [if_neg hne'] at a2
  refine ⟨by rw [a2, b1], ?_, ?_, fun az h0 h360 hdiff => ?_⟩
  · rw [a1, b2]; simp; omega
  · obtain ⟨q, hq⟩ := hdvd
    have hds := directions_eq inc q hi hq
    have hlen : (directions inc).length = q := by rw [hds]; simp
    have hir : (0 : ℝ) < inc := by exact_mod_cast hi
    have hlt : ((j : ℝ)) * inc < 360 := by
      have : j * inc < 360 := by rw [hq, mul_comm inc q]; exact Nat.mul_lt_mul_of_pos_right (hlen ▸ hj) hi
      exact_mod_cast this
    have h0 : (0 : ℝ) ≤ (j : ℝ) * inc := by positivity
    obtain ⟨k, d, hd, ⟨hmem, m, hm⟩, hidx⟩ := index_nearest inc hi ⟨q, hq⟩ ((j : ℝ) * inc) h0 hlt
    have hself := hm ((j : Rat) * inc) (by rw [hds]; exact List.mem_map.2 ⟨j, List.mem_range.2 (hlen ▸ hj), rfl⟩) 0
    push_cast at hself
    rw [mul_zero, add_zero, sub_self, abs_zero] at hself
    have hz := abs_eq_zero.1 (le_antisymm hself (abs_nonneg _))
    have hdk : d = (k : Rat) * inc ∧ k < q := by
      rw [hds, List.getElem?_map] at hd
      obtain ⟨k', hk', e⟩ := Option.map_eq_some_iff.1 hd
      obtain ⟨hlt', e'⟩ := List.getElem?_eq_some_iff.1 hk'
      rw [List.getElem_range] at e'
      rw [List.length_range] at hlt'
      exact ⟨by rw [← e, ← e'], hlt'⟩
    have hkj : k = j := by
      rw [hdk.1] at hz
      push_cast at hz
      have e360 : (360 : ℝ) = inc * q := by exact_mod_cast hq
      rw [e360] at hz
      have hz2 : ((j : ℝ) - (k + q * m)) * inc = 0 := by linarith
      have hz3 : (j : ℝ) - (k + q * m) = 0 := (mul_eq_zero.1 hz2).resolve_right hir.ne'
      have hz4 : (j : ℤ) = k + q * m := by
        have : (j : ℝ) = k + q * m := by linarith
        exact_mod_cast this
      have hkq := hdk.2
      have hjq : j < q := hlen ▸ hj
      have hm0 : m = 0 := by
        rcases lt_trichotomy m 0 with h | h | h
        · have : (q : ℤ) * m ≤ -q := by nlinarith
          omega
        · exact h
        · have : (q : ℤ) ≤ q * m := by nlinarith
          omega
      rw [hm0] at hz4
      omega
    subst hkj
    refine ⟨_, h0, hlt, ?_⟩
    unfold cellMaxus column
    rw [hidx, a1]
    simp only [Option.bind_some, List.getElem?_map]
    rw [List.getElem?_append_right (by simp), List.getElem?_replicate, if_pos (by simp; omega)]
    rfl
  · obtain ⟨k, d, hd, -, hidx⟩ := index_nearest inc hi hdvd az h0 h360
    unfold cellMaxus column at hdiff ⊢
    rw [hidx] at hdiff ⊢
    rw [a1, b2] at hdiff
    rw [a1]
    have hk : k < (directions inc).length := by
      obtain ⟨h, -⟩ := List.getElem?_eq_some_iff.1 hd
      exact h
    rcases Nat.lt_or_ge k j with hkj | hkj
    · exfalso
      apply hdiff
      simp only [Option.bind_some, List.getElem?_map]
      rw [List.getElem?_append_left (by simp; omega), List.getElem?_map, List.getElem?_take_of_lt hkj]
    · simp only [Option.bind_some, List.getElem?_map]
      rw [List.getElem?_append_right (by simp; omega), List.getElem?_replicate, if_pos (by simp; omega)]
      rfl

/-- The windowed library never overwrites the library it is made from. -/
theorem C131_names (p digits : Path) : windowName p digits ≠ p := by
  have key : ∃ ext, (splitext p).1 ++ ext = p ∧ (ext = [] ∨ ∃ l, ext = '.' :: l) := by
    unfold splitext
    simp only
    split
    · rename_i h
      refine ⟨p.drop (p.length - ((((p.reverse.takeWhile (· ≠ '/')).reverse).reverse.takeWhile (· ≠ '.')).reverse).length - 1),
        List.take_append_drop _ _, .inr ?_⟩
      rw [List.reverse_reverse]
      have hdot := h.1
      rw [List.mem_reverse] at hdot
      -- the reversed path is: letters without dot, a dot, the rest
      have hsplit : ∀ l : List Char, '.' ∈ l.takeWhile (· ≠ '/') →
          ∃ rest, l = (l.takeWhile (· ≠ '/')).takeWhile (· ≠ '.') ++ '.' :: rest := by
        intro l
        induction l with
        | nil => intro h; simp at h
        | cons x l ih =>
          intro h
          by_cases hx : x = '/'
          · simp [hx] at h
          · rw [List.takeWhile_cons_of_pos (by simp [hx])] at h ⊢
            by_cases hd : x = '.'
            · subst hd
              exact ⟨l, by rw [List.takeWhile_cons_of_neg (by simp)]; rfl⟩
            · rw [List.takeWhile_cons_of_pos (by simp [hd])]
              rcases List.mem_cons.1 h with h | h
              · exact absurd h.symm hd
              · obtain ⟨rest, hr⟩ := ih h
                exact ⟨rest, by rw [List.cons_append, ← hr]⟩
      obtain ⟨rest, hr⟩ := hsplit p.reverse hdot
      have hp : p = rest.reverse ++ '.' :: ((p.reverse.takeWhile (· ≠ '/')).takeWhile (· ≠ '.')).reverse := by
        have := congrArg List.reverse hr
        rw [List.reverse_reverse, List.reverse_append, List.reverse_cons, List.append_assoc] at this
        exact this
      generalize ((p.reverse.takeWhile (· ≠ '/')).takeWhile (· ≠ '.')).reverse = e at hp ⊢
      refine ⟨e, ?_⟩
      rw [hp]
      have : (rest.reverse ++ '.' :: e).length - e.length - 1 = rest.reverse.length := by simp; omega
      rw [this, List.drop_left]
    · exact ⟨[], by simp, .inl rfl⟩
  obtain ⟨ext, h1, h2⟩ := key
  intro h
  unfold windowName at h
  have h3 : (splitext p).1 ++ ('_' :: digits ++ "window.nc".toList) = (splitext p).1 ++ ext := by
    rw [h1]
    simpa using h
  have h4 := List.append_cancel_left h3
  rcases h2 with rfl | ⟨l, rfl⟩
  · cases h4
  · have := (List.cons.inj h4).1
    exact absurd this (by decide)

/-- The last component of a path. -/
theorem last_of (dir last : Path) (hdir : dir = [] ∨ ∃ d, dir = d ++ ['/']) (hl : '/' ∉ last) :
    (((dir ++ last).reverse.takeWhile (· ≠ '/')).reverse : Path) = last := by
  have h1 : ∀ x ∈ last.reverse, decide (x ≠ '/') = true := by
    intro x hx
    simp only [ne_eq, decide_eq_true_eq]
    rintro rfl
    exact hl (List.mem_reverse.1 hx)
  rcases hdir with rfl | ⟨d, rfl⟩
  · rw [List.nil_append, List.takeWhile_eq_self_iff.2 h1, List.reverse_reverse]
  · rw [List.reverse_append, List.takeWhile_append_of_pos h1, List.reverse_append]
    simp

theorem ext_of (stem ext : Path) (he : '.' ∉ ext) : (((stem ++ '.' :: ext).reverse.takeWhile (· ≠ '.')).reverse : Path) = ext := by
  have h1 : ∀ x ∈ ext.reverse, decide (x ≠ '.') = true := by
    intro x hx
    simp only [ne_eq, decide_eq_true_eq]
    rintro rfl
    exact he (List.mem_reverse.1 hx)
  rw [List.reverse_append, List.reverse_cons, List.append_assoc, List.takeWhile_append_of_pos h1]
  simp

/-- The name of the windowed library: only the extension of the last component is replaced. A last component that has
dots only before its extension (a hidden file) has no extension, and keeps its name. -/
theorem C131_window_name (dir stem ext digits : Path) (hdir : dir = [] ∨ ∃ d, dir = d ++ ['/']) (hs : '/' ∉ stem)
    (he : '/' ∉ ext) (he' : '.' ∉ ext) :
    windowName (dir ++ stem ++ '.' :: ext) digits =
      (if ∃ x ∈ stem, x ≠ '.' then dir ++ stem else dir ++ stem ++ '.' :: ext) ++ '_' :: digits ++ "window.nc".toList := by
  have hsp : (splitext (dir ++ stem ++ '.' :: ext)).1 = if ∃ x ∈ stem, x ≠ '.' then dir ++ stem else dir ++ stem ++ '.' :: ext := by
    unfold splitext
    have hlast := last_of dir (stem ++ '.' :: ext) hdir (by simp [hs, he])
    rw [← List.append_assoc] at hlast
    simp only [hlast, ext_of stem ext he']
    have h1 : (stem ++ '.' :: ext).take ((stem ++ '.' :: ext).length - ext.length - 1) = stem := by
      rw [show (stem ++ '.' :: ext).length - ext.length - 1 = stem.length by simp; omega, List.take_left]
    have h2 : (dir ++ stem ++ '.' :: ext).take ((dir ++ stem ++ '.' :: ext).length - ext.length - 1) = dir ++ stem := by
      rw [show (dir ++ stem ++ '.' :: ext).length - ext.length - 1 = (dir ++ stem).length by simp; omega, List.take_left]
    rw [h1, h2]
    by_cases q : ∃ x ∈ stem, x ≠ '.'
    · rw [if_pos q, if_pos ⟨by simp, by simpa using q⟩]
    · rw [if_neg q, if_neg fun h => q (by simpa using h.2)]
  unfold windowName
  rw [hsp]

/-- The script looks for the directory of the library: what is before the last slash. -/
theorem C131_directory (isFile isDir : Path → Bool) (dem dir name : Path) (c : Char) (hc : c ≠ '/') (hn : '/' ∉ name) :
    accepts isFile isDir dem (dir ++ [c] ++ '/' :: name) = (isFile dem && isDir (dir ++ [c])) := by
  have h1 : ∀ x ∈ name.reverse, decide (x ≠ '/') = true := by
    intro x hx
    simp only [ne_eq, decide_eq_true_eq]
    rintro rfl
    exact hn (List.mem_reverse.1 hx)
  have hh : (dir ++ [c] ++ '/' :: name).reverse.dropWhile (· ≠ '/') = '/' :: c :: dir.reverse := by
    rw [List.reverse_append, List.reverse_cons, List.append_assoc, List.dropWhile_append_of_pos h1]
    simp
  unfold accepts dirname
  simp only [hh]
  rw [if_neg (by simp [hc])]
  simp [hc]

/-- For a library in the root directory that is the root itself. -/
theorem C131_root (isFile isDir : Path → Bool) (dem name : Path) (hn : '/' ∉ name) :
    accepts isFile isDir dem ('/' :: name) = (isFile dem && isDir ['/']) := by
  have h1 : ∀ x ∈ name.reverse, decide (x ≠ '/') = true := by
    intro x hx
    simp only [ne_eq, decide_eq_true_eq]
    rintro rfl
    exact hn (List.mem_reverse.1 hx)
  have hh : ('/' :: name).reverse.dropWhile (· ≠ '/') = ['/'] := by
    rw [List.reverse_cons, List.dropWhile_append_of_pos h1]
    simp
  unfold accepts dirname
  simp only [hh]
  rw [if_pos (by simp)]
  simp

/-- A file name without a directory is refused, although it could be written. -/
theorem C131_bare_fails (isFile isDir : Path → Bool) (hd : isDir [] = false) (dem out : Path) (ho : '/' ∉ out) :
    accepts isFile isDir dem out = false := by
  have : out.reverse.dropWhile (· ≠ '/') = [] := by
    rw [List.dropWhile_eq_nil_iff]
    intro x hx
    simp only [ne_eq, decide_eq_true_eq]
    rintro rfl
    exact ho (List.mem_reverse.1 hx)
  unfold accepts dirname
  rw [this]
  simp [hd]

/-- The option for the topographic break is on for every word, "False" included. -/
theorem C131_flag_fails (word : Path) (h : word ≠ []) : flag word = true := by simp [flag, h]

theorem C131_fails : ¬ C131_full := by
  intro h
  obtain ⟨az, h0, h1, hno⟩ := C131_increment_fails 7 (by norm_num) (by norm_num) (by norm_num)
  obtain ⟨d, -, hd⟩ := h 7 (by norm_num) (by norm_num) (fun _ _ => 0) 1 le_rfl az h0 h1
  rw [hno] at hd
  cases hd

example : windowName "lib/.nc".toList "100".toList = "lib/.nc_100window.nc".toList :=
  (C131_window_name "lib/".toList [] "nc".toList "100".toList (.inr ⟨"lib".toList, rfl⟩) (by decide) (by decide) (by decide)).trans
    (by decide)

example (isFile isDir : Path → Bool) : accepts isFile isDir "dem.nc".toList "out/maxus.nc".toList =
    (isFile "dem.nc".toList && isDir "out".toList) :=
  C131_directory isFile isDir _ "ou".toList "maxus.nc".toList 't' (by decide) (by decide)

example (isFile isDir : Path → Bool) : accepts isFile isDir "dem.nc".toList "/maxus.nc".toList =
    (isFile "dem.nc".toList && isDir "/".toList) :=
  C131_root isFile isDir _ "maxus.nc".toList (by decide)

/-- The default of the script: 5 degrees, a window of 100 degrees, and its default file names. -/
example : (0 : Nat) < 5 ∧ 5 ∣ 360 ∧ (directions 5).length = 72 ∧ (∃ h : Nat, (100 : Rat) / 2 = h * 5) ∧ (100 : Rat) < 720 ∧
    splitext "./maxus.nc".toList = ("./maxus".toList, ".nc".toList) ∧
    windowName "./maxus.nc".toList "100".toList = "./maxus_100window.nc".toList ∧
    dirname "./maxus.nc".toList = ".".toList ∧ dirname "maxus.nc".toList = [] ∧ flag "False".toList = true := by
  refine ⟨by norm_num, by norm_num, ?_, ⟨10, by norm_num⟩, by norm_num, by decide, by decide, by decide, by decide, by decide⟩
  rw [directions_eq 5 72 (by norm_num) (by norm_num)]
  simp

end Verif.MaxusLib
