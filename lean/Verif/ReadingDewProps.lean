import Verif.DewErrorProps
import Verif.SolarErrorProps
import Verif.SteadyProps

/-! C190: an error in the vapor pressure at the stations, from the readings through distribution and limits to the
published dew point (`smrf/distribute/image_data.py`, `smrf/distribute/vapor_pressure.py:95-160`,
`smrf/envphys/core/dewpt.c`). -/

namespace Verif.ReadingDew
open Verif.Vapor Verif.Dewpoint Verif.Idw

/-- The image as the vapor pressure module reads it: a cell without a finite value is NaN (an infinite cell too: simplified; the theorems are
about finite cells). `smrf/distribute/vapor_pressure.py:124`. -/
noncomputable def picture (img : List Ext) (i : Nat) : Option ℝ :=
  match img[i]? with
  | some (.fin v) => some v
  | _ => none

/-- A solver that returns, in degrees Celsius, what the search of `smrf/envphys/core/dewpt.c:1-229` ends with. -/
def Solves (t : ℝ) (solve : Option ℝ → Option ℝ) : Prop :=
  ∀ e x, (∃ N, ∀ n, N ≤ n → dewPoint n e machine t = some (.root x)) → solve (some e) = some (x - freeze)

theorem clamp_between (lo hi x : ℝ) (h : lo ≤ hi) : lo ≤ Solar.clamp (some lo) (some hi) x ∧ Solar.clamp (some lo) (some hi) x ≤ hi := by
  unfold Solar.clamp
  simp only [Option.elim]
  split_ifs <;> constructor <;> linarith

/-- One cell: images that differ by at most `d` there. -/
theorem dew_near (lo hi t d : ℝ) (hlo : 20 ≤ lo) (hhi : hi ≤ 3 / 2 * seaLevel) (hl : lo ≤ hi) (ht : 1 / 10000 ≤ t) (ht2 : t ≤ 10)
    (solve : Option ℝ → Option ℝ) (hsol : Solves t solve) (wet : Option ((Nat → Option ℝ) → (Nat → Option ℝ) → Nat → Option ℝ))
    (img img' ta : Nat → Option ℝ) (i : Nat) (v v' T : ℝ) (hv : img i = some v) (hv' : img' i = some v') (hT : ta i = some T)
    (hd : |v' - v| ≤ d) :
    ∃ e e' x x', (Vapor.distribute (some lo) (some hi) solve wet img ta).vp i = some e ∧
      (Vapor.distribute (some lo) (some hi) solve wet img' ta).vp i = some e' ∧ |e' - e| ≤ d ∧
      (Vapor.distribute (some lo) (some hi) solve wet img ta).dew i = some x ∧
      (Vapor.distribute (some lo) (some hi) solve wet img' ta).dew i = some x' ∧
      |x' - x| ≤ 5 / 2 * d + 4 * t + 2 / 10 + 1 / 10 ^ 10 := by
  have c := clamp_between lo hi v hl
  have c' := clamp_between lo hi v' hl
  have n := (Solar.clamp_near (some lo) (some hi) v' v).trans hd
  obtain ⟨N, y, y', hy, hb⟩ := C189_dew_point (Solar.clamp (some lo) (some hi) v) (Solar.clamp (some lo) (some hi) v') t
    (by linarith) (by linarith) (by linarith) (by linarith) ht ht2
  have s := hsol _ y ⟨N, fun m hm => (hy m hm).1⟩
  have s' := hsol _ y' ⟨N, fun m hm => (hy m hm).2⟩
  have out (z : ℝ) : ∃ w, limitDew (some z) (some T) = some w := by
    unfold limitDew
    simp only
    split <;> exact ⟨_, rfl⟩
  obtain ⟨w, hw⟩ := out (y - freeze)
  obtain ⟨w', hw'⟩ := out (y' - freeze)
  refine ⟨_, _, w, w', ?_, ?_, n, ?_, ?_, ?_⟩
  · unfold Vapor.distribute; simp only [hv, Solar.clamp_eq]
  · unfold Vapor.distribute; simp only [hv', Solar.clamp_eq]
  · unfold Vapor.distribute; simp only [hv, Solar.clamp_eq, s, hT, hw]
  · unfold Vapor.distribute; simp only [hv', Solar.clamp_eq, s', hT, hw']
  · have := C189_limited _ _ _ _ _ hw hw'
    rw [show y' - freeze - (y - freeze) = y' - y by ring] at this
    linarith

/-- Without trend: readings that differ by at most `d` Pa give dew points that differ by at most 2.5 degrees per Pa, besides the
tolerance and the limit. -/
theorem C190_plain (lo hi t d : ℝ) (hlo : 20 ≤ lo) (hhi : hi ≤ 3 / 2 * seaLevel) (hl : lo ≤ hi) (ht : 1 / 10000 ≤ t) (ht2 : t ≤ 10)
    (solve : Option ℝ → Option ℝ) (hsol : Solves t solve) (wet : Option ((Nat → Option ℝ) → (Nat → Option ℝ) → Nat → Option ℝ))
    (p : ℝ) (grid : List Cell) (sta sta' : List Station) (img img' : List Ext)
    (h : calculateIDW p grid sta = .ok img) (h' : calculateIDW p grid sta' = .ok img') (hh : List.Forall₂ (Near d) sta sta')
    (i : Nat) (g : Cell) (hg : grid[i]? = some g) (hc : NoStationAt sta g) (hk : SomeData sta)
    (ta : Nat → Option ℝ) (T : ℝ) (hT : ta i = some T) :
    ∃ x x', (Vapor.distribute (some lo) (some hi) solve wet (picture img) ta).dew i = some x ∧
      (Vapor.distribute (some lo) (some hi) solve wet (picture img') ta).dew i = some x' ∧
      |x' - x| ≤ 5 / 2 * d + 4 * t + 2 / 10 + 1 / 10 ^ 10 := by
  obtain ⟨v, v', e, e', b⟩ := C180_plain_partial p d grid sta sta' img img' h h' hh i g hg hc hk
  obtain ⟨-, -, x, x', -, -, -, q⟩ := dew_near lo hi t d hlo hhi hl ht ht2 solve hsol wet (picture img) (picture img') ta i v v' T
    (by unfold picture; rw [e]) (by unfold picture; rw [e']) hT b
  exact ⟨x, x', q⟩

/-- With trend the error is first raised by the distance of the cell from the mean elevation of its stations, in standard
deviations. -/
theorem C190_trend (lo hi t d : ℝ) (hlo : 20 ≤ lo) (hhi : hi ≤ 3 / 2 * seaLevel) (hl : lo ≤ hi) (ht : 1 / 10000 ≤ t) (ht2 : t ≤ 10)
    (solve : Option ℝ → Option ℝ) (hsol : Solves t solve) (wet : Option ((Nat → Option ℝ) → (Nat → Option ℝ) → Nat → Option ℝ))
    (fit : List (ℝ × ℝ) → ℝ × ℝ) (hf : LeastSquares fit) (flag : Int) (p : ℝ) (grid : List Cell) (l : List Gauge)
    (hD : 0 < deviation l) (hr : ∀ q ∈ l, |q.after - q.before| ≤ d) (img img' : List Ext)
    (h : detrendedIDW fit flag p grid (stationsOf Gauge.before l) = .ok img)
    (h' : detrendedIDW fit flag p grid (stationsOf Gauge.after l) = .ok img')
    (i : Nat) (g : Cell) (hg : grid[i]? = some g) (hc : ∀ q ∈ l, ¬ (g.x = q.x ∧ g.y = q.y))
    (ta : Nat → Option ℝ) (T : ℝ) (hT : ta i = some T) :
    ∃ x x', (Vapor.distribute (some lo) (some hi) solve wet (picture img) ta).dew i = some x ∧
      (Vapor.distribute (some lo) (some hi) solve wet (picture img') ta).dew i = some x' ∧
      |x' - x| ≤ 5 / 2 * (d * (1 + |g.z - total (weighted p g l) fun q => q.weight * q.z| / deviation l)) + 4 * t + 2 / 10 + 1 / 10 ^ 10 := by
  obtain ⟨v, v', e, e', b⟩ := C180_idw_partial fit hf flag p grid l hD d hr img img' h h' i g hg hc
  obtain ⟨-, -, x, x', -, -, -, q⟩ := dew_near lo hi t _ hlo hhi hl ht ht2 solve hsol wet (picture img) (picture img') ta i v v' T
    (by unfold picture; rw [e]) (by unfold picture; rw [e']) hT b
  exact ⟨x, x', q⟩

/-- Such a solver exists: for the tolerance of 0.01 degrees, the one that reads off the end of the search. -/
example : ∃ solve, Solves (1 / 100) solve ∧ ∃ x, solve (some 600) = some x := by
  classical
  have hs : Solves (1 / 100) fun e => e.bind fun e =>
      if h : ∃ x, ∃ N, ∀ n, N ≤ n → dewPoint n e machine (1 / 100) = some (.root x) then some (h.choose - freeze) else none := by
    intro e x hx
    have ex : ∃ x, ∃ N, ∀ n, N ≤ n → dewPoint n e machine (1 / 100) = some (.root x) := ⟨x, hx⟩
    simp only [Option.bind_some, dif_pos ex]
    obtain ⟨N, h1⟩ := ex.choose_spec
    obtain ⟨M, h2⟩ := hx
    have e1 := h1 (max N M) (le_max_left _ _)
    rw [h2 (max N M) (le_max_right _ _)] at e1
    have : x = ex.choose := by cases e1; rfl
    rw [← this]
  obtain ⟨N, x, hx, -⟩ := near_root 600 (1 / 100) (by norm_num) (by norm_num [seaLevel]) (by norm_num) (by norm_num)
  exact ⟨_, hs, _, hs 600 x ⟨N, hx⟩⟩

/-- Two stations, one of which reads 5 Pa more in the second run, and a cell between them. -/
example (solve : Option ℝ → Option ℝ) (hsol : Solves (1 / 100) solve) :
    ∃ img img', calculateIDW 2 [⟨1, 0, 0⟩] [⟨0, 0, 0, some 400⟩, ⟨3, 0, 0, some 500⟩] = .ok img ∧
      calculateIDW 2 [⟨1, 0, 0⟩] [⟨0, 0, 0, some 405⟩, ⟨3, 0, 0, some 500⟩] = .ok img' ∧
      ∃ x x', (Vapor.distribute (some 20) (some 5000) solve none (picture img) fun _ => some 4).dew 0 = some x ∧
        (Vapor.distribute (some 20) (some 5000) solve none (picture img') fun _ => some 4).dew 0 = some x' ∧ |x' - x| ≤ 13 := by
  obtain ⟨img, h⟩ := calculate_ok 2 [⟨1, 0, 0⟩] [⟨0, 0, 0, some 400⟩, ⟨3, 0, 0, some 500⟩] (by simp) (by simp)
  obtain ⟨img', h'⟩ := calculate_ok 2 [⟨1, 0, 0⟩] [⟨0, 0, 0, some 405⟩, ⟨3, 0, 0, some 500⟩] (by simp) (by simp)
  refine ⟨img, img', h, h', ?_⟩
  obtain ⟨x, x', a, b, c⟩ := C190_plain 20 5000 (1 / 100) 5 (by norm_num) (by norm_num [seaLevel]) (by norm_num) (by norm_num)
    (by norm_num) solve hsol none 2 _ _ _ img img' h h'
    (by
      refine .cons ⟨rfl, rfl, rfl, .inr ⟨400, 405, rfl, rfl, by norm_num⟩⟩ (.cons ⟨rfl, rfl, rfl, .inr ⟨500, 500, rfl, rfl, by norm_num⟩⟩ .nil))
    0 ⟨1, 0, 0⟩ rfl (by intro s hs _; simp at hs; rcases hs with rfl | rfl <;> norm_num) ⟨_, List.mem_cons_self, by simp⟩
    (fun _ => some 4) 4 rfl
  exact ⟨x, x', a, b, c.trans (by norm_num)⟩

/-- Three stations at different elevations and the default trend. -/
example (solve : Option ℝ → Option ℝ) (hsol : Solves (1 / 100) solve) :
    ∃ img img', detrendedIDW closedForm (-1) 2 [⟨3, 3, 1800⟩] (stationsOf Gauge.before three) = .ok img ∧
      detrendedIDW closedForm (-1) 2 [⟨3, 3, 1800⟩] (stationsOf Gauge.after three) = .ok img' ∧
      ∃ x x', (Vapor.distribute (some 20) (some 5000) solve none (picture img) fun _ => some 4).dew 0 = some x ∧
        (Vapor.distribute (some 20) (some 5000) solve none (picture img') fun _ => some 4).dew 0 = some x' ∧
        |x' - x| ≤ 5 / 2 * (1 * (1 + |1800 - total (weighted 2 ⟨3, 3, 1800⟩ three) fun q => q.weight * q.z| / deviation three)) + 4 * (1 / 100) +
          2 / 10 + 1 / 10 ^ 10 := by
  have ok : ∀ f, ∃ img, detrendedIDW closedForm (-1) 2 [⟨3, 3, 1800⟩] (stationsOf f three) = .ok img := by
    intro f
    obtain ⟨img, h⟩ := calculate_ok 2 [⟨3, 3, 1800⟩] (detrend closedForm (-1) (stationsOf f three)).2 (by simp) (by simp [detrend, stationsOf, three])
    unfold detrendedIDW
    simp only
    rw [h]
    exact ⟨_, rfl⟩
  obtain ⟨img, h⟩ := ok Gauge.before
  obtain ⟨img', h'⟩ := ok Gauge.after
  refine ⟨img, img', h, h', ?_⟩
  exact C190_trend 20 5000 (1 / 100) 1 (by norm_num) (by norm_num [seaLevel]) (by norm_num) (by norm_num)
    (by norm_num) solve hsol none closedForm closedForm_least (-1) 2 [⟨3, 3, 1800⟩] three three_deviation (by
    intro q hq
    simp only [three, List.mem_cons, List.not_mem_nil, or_false] at hq
    rcases hq with rfl | rfl | rfl <;> norm_num) img img' h h' 0 ⟨3, 3, 1800⟩ rfl (by
    intro q hq
    simp only [three, List.mem_cons, List.not_mem_nil, or_false] at hq
    rcases hq with rfl | rfl | rfl <;> norm_num) (fun _ => some 4) 4 rfl

end Verif.ReadingDew
