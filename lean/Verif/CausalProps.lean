import Verif.CausalLemmas

/-!
Property C137: the images of a time step depend only on the input up to that step. It holds of the loops over the
time steps (serial and threaded), of the loaders that work step by step and of the tracking of storms; it fails of
the corrected precipitation of the marks2017 model and of the cloud factor at night of an HRRR run, which are
computed from the whole period before the run.
-/

namespace Verif.Causal

/-! ### The loop over the time steps -/

section run
open Verif.Run Verif.Stamp
variable {ι D : Type} [Fintype ι]

/-- A run over the first `k` steps ends if the whole run ends, and has its first `k` images: stopping early changes
nothing. -/
theorem C137_prefix (c : Cfg ι D) (fuel : Nat) (xs : List (In ι D)) : ∀ (s : State ι) (os : List (Out ι)) (k : Nat),
    run c fuel s xs = .ok os → run c fuel s (xs.take k) = .ok (os.take k) := by
  induction xs with
  | nil =>
    intro s os k h
    cases h
    simp [run]
  | cons x xs ih =>
    intro s os k h
    cases k with
    | zero => simp [run]
    | succ k =>
      rw [run] at h
      rw [List.take_succ_cons, run]
      split at h
      · cases h
      · rename_i s' o hs
        split at h
        · cases h
        · rename_i os' ho
          cases h
          rw [ih s' os' k ho]
          rfl

/-- Two runs whose input agrees in the first `k` steps publish the same images in these steps. -/
theorem C137_steps (c : Cfg ι D) (fuel : Nat) (s : State ι) (xs ys : List (In ι D)) (os ps : List (Out ι)) (k : Nat)
    (hx : run c fuel s xs = .ok os) (hy : run c fuel s ys = .ok ps) (h : xs.take k = ys.take k) : os.take k = ps.take k := by
  have h1 := C137_prefix c fuel xs s os k hx
  have h2 := C137_prefix c fuel ys s ps k hy
  rw [h, h2] at h1
  exact (Except.ok.inj h1).symm

theorem expectedFrom_append (oc : OutCfg ι) (v : Name) (a b : List (Out ι)) : ∀ k,
    expectedFrom oc v k (a ++ b) = expectedFrom oc v k a ++ expectedFrom oc v (k + a.length) b := by
  induction a with
  | nil => intro k; simp [expectedFrom]
  | cons o a ih =>
    intro k
    simp only [List.cons_append, expectedFrom, ih, List.append_assoc, List.length_cons]
    rw [show k + 1 + a.length = k + (a.length + 1) by omega]

/-- The files of the two runs begin with the same records, those of the first `k` steps. -/
theorem C137_files (c : Cfg ι D) (oc : OutCfg ι) (fuel : Nat) (hm : 0 < oc.minutes) (hd : oc.vars.Nodup) (s : State ι)
    (xs ys : List (In ι D)) (os ps : List (Out ι)) (k : Nat) (hx : run c fuel s xs = .ok os) (hy : run c fuel s ys = .ok ps)
    (hnx : Near 18 (xs.length * oc.minutes)) (hny : Near 18 (ys.length * oc.minutes))
    (hox : ∀ o ∈ os, ∀ v ∈ oc.vars, ∃ d, image o v = .ok d) (hoy : ∀ o ∈ ps, ∀ v ∈ oc.vars, ∃ d, image o v = .ok d)
    (h : xs.take k = ys.take k) : ∃ fs gs, runFiles c oc fuel s xs = (fs, none) ∧ runFiles c oc fuel s ys = (gs, none) ∧
      ∀ v ∈ oc.vars, ∃ m, (fs v).take m = (gs v).take m ∧
        ((fs v).take m).map (fun r => (r.1, Except.ok r.2)) = expected oc v (os.take k) := by
  obtain ⟨fs, f1, -, f3⟩ := C129_files c oc fuel hm hd s xs os hx hnx hox
  obtain ⟨gs, g1, -, g3⟩ := C129_files c oc fuel hm hd s ys ps hy hny hoy
  have hk := C137_steps c fuel s xs ys os ps k hx hy h
  refine ⟨fs, gs, f1, g1, fun v hv => ⟨(expected oc v (os.take k)).length, ?_, ?_⟩⟩
  · have inj : Function.Injective fun r : ℚ × (ι → ℝ) => (r.1, (Except.ok r.2 : Except Solar.Err (ι → ℝ))) := by
      rintro ⟨a, b⟩ ⟨a', b'⟩ e
      simp only [Prod.mk.injEq, Except.ok.injEq] at e
      exact Prod.ext e.1 e.2
    apply List.map_injective_iff.2 inj
    rw [List.map_take, List.map_take, f3 v hv, g3 v hv, expected_from, expected_from, expected_from]
    have e1 : expectedFrom oc v 0 os = expectedFrom oc v 0 (os.take k ++ os.drop k) := by rw [List.take_append_drop]
    have e2 : expectedFrom oc v 0 ps = expectedFrom oc v 0 (os.take k ++ ps.drop k) := by rw [hk, List.take_append_drop]
    rw [e1, e2, expectedFrom_append, expectedFrom_append, List.take_left, List.take_left]
  · rw [List.map_take, f3 v hv, expected_from, expected_from]
    have e1 : expectedFrom oc v 0 os = expectedFrom oc v 0 (os.take k ++ os.drop k) := by rw [List.take_append_drop]
    rw [e1, expectedFrom_append, List.take_left]

/-- Two runs that begin with the same snowy step and go on differently; the first step has the same images. -/
example : ∃ N os ps, run snowyCfg N snowyState [snowyIn (1 / 2), snowyIn 0] = .ok os ∧
    run snowyCfg N snowyState [snowyIn (1 / 2), snowyIn (1 / 2), snowyIn 0] = .ok ps ∧ os.take 1 = ps.take 1 ∧
    (os.take 1).length = 1 := by
  have hm : ∀ x ∈ [snowyIn (1 / 2), snowyIn (1 / 2), snowyIn 0], Meets snowyCfg x := by
    intro x hx
    simp only [List.mem_cons, List.not_mem_nil, or_false] at hx
    rcases hx with rfl | rfl | rfl
    · exact snowy_meets _ (.inr rfl)
    · exact snowy_meets _ (.inr rfl)
    · exact snowy_meets _ (.inl le_rfl)
  obtain ⟨N, os, h⟩ := C125_no_abort_partial snowyCfg snowy_sound snowyState [snowyIn (1 / 2), snowyIn 0] (by
    intro x hx
    exact hm x (by simp only [List.mem_cons, List.not_mem_nil, or_false] at hx ⊢; tauto))
  obtain ⟨N', ps, h'⟩ := C125_no_abort_partial snowyCfg snowy_sound snowyState _ hm
  have h1 := h (max N N') (le_max_left _ _)
  have hr := C125_in_range snowyCfg snowy_sensible _ snowyState snowy_physical _ os h1
  exact ⟨max N N', os, ps, h1, h' _ (le_max_right _ _),
    C137_steps snowyCfg _ snowyState _ _ os ps 1 h1 (h' _ (le_max_right _ _)) rfl, by
      rw [List.length_take, ← hr.length_eq]; rfl⟩

end run

/-! ### The threaded run -/

section threaded
open Verif.Pipeline
variable {I Q V σ : Type} [DecidableEq I] [DecidableEq Q]

theorem serialDate_congr (N N' : Net I Q V σ) (t : Nat) (hb : ∀ i x, N.body i x t = N'.body i x t) (order : List I) :
    ∀ st env, serialDate N t order st env = serialDate N' t order st env := by
  induction order with
  | nil => intro st env; rfl
  | cons i is ih =>
    intro st env
    simp only [serialDate, hb]
    split
    · rfl
    · exact ih _ _

theorem serialRun_congr (N N' : Net I Q V σ) (order : List I) (hi : N.init = N'.init) : ∀ n,
    (∀ t, t < n → ∀ i x, N.body i x t = N'.body i x t) → serialRun N order n = serialRun N' order n := by
  intro n
  induction n with
  | zero => intro _; simp [serialRun, hi]
  | succ n ih =>
    intro hb
    simp only [serialRun]
    rw [ih fun t ht => hb t (by omega)]
    split
    · rfl
    · rw [serialDate_congr N N' n (hb n (by omega)) order]

/-- Threaded runs of two networks of modules that start alike and behave alike up to date `t` (the data thread
delivers the same data up to `t`): whatever the interleavings, the numbers of dates, the sizes of the queues and the
data after `t`, a variable published at `t` has the same value in both. -/
theorem C137_threaded {N N' : Net I Q V σ} {owned owned' : I → List Q} (W : SingleWriter N owned) (W' : SingleWriter N' owned')
    (order : List I) (hnd : order.Nodup) (hall : ∀ i, i ∈ order) {st st' : I → σ}
    (hser : serialRun N order N.steps = some st) (hser' : serialRun N' order N'.steps = some st')
    (hi : N.init = N'.init) (t : Nat) (hb : ∀ d, d ≤ t → ∀ i x, N.body i x d = N'.body i x d)
    {s s' : St I Q V σ} (hr : Reach N s) (hr' : Reach N' s') {q : Q} {v v' : V}
    (hp : Published s q t v) (hp' : Published s' q t v') : v = v' := by
  have h1 := C06_agrees_with_serial W order hnd hall hser hr hp
  have h2 := C06_agrees_with_serial W' order hnd hall hser' hr' hp'
  have e : serialValue N order t q = serialValue N' order t q := by
    simp only [serialValue]
    rw [serialRun_congr N N' order hi t fun d hd => hb d (by omega)]
    split
    · rfl
    · rw [serialDate_congr N N' t (hb t le_rfl) order]
  rw [h1, h2] at e
  exact Option.some.inj e

/-- The demonstration network with other data from date 2 on. -/
def late (c : Int) (n : Nat) : Net Demo.DI Demo.DQ3 Int Int :=
  { Demo.net c n with
    body := fun i s t => match i with
      | .load => .put .d (if t < 2 then 3 * t - 4 else 100) (.ret s)
      | i => Demo.body i s t }

theorem late_single (c : Int) (n : Nat) : SingleWriter (late c n) Demo.owned where
  nodup := (Demo.single c n).nodup
  disjoint := (Demo.single c n).disjoint
  atMost i s t := by
    have := (Demo.single c n).atMost i s t
    cases i
    · simpa [late, Demo.net, Demo.body, AtMost] using this
    · exact this
    · exact this

/-- The hypotheses are met by two networks that differ from date 2 on, with different queue sizes and lengths, and
the values at date 2 do differ. -/
example : SingleWriter (Demo.net 1 4) Demo.owned ∧ SingleWriter (late 5 6) Demo.owned ∧
    (serialRun (Demo.net 1 4) [.load, .m1, .m2] 4).isSome = true ∧ (serialRun (late 5 6) [.load, .m1, .m2] 6).isSome = true ∧
    (∀ d, d ≤ 1 → ∀ i x, (Demo.net 1 4).body i x d = (late 5 6).body i x d) ∧
    serialValue (Demo.net 1 4) [.load, .m1, .m2] 1 .a = serialValue (late 5 6) [.load, .m1, .m2] 1 .a ∧
    serialValue (Demo.net 1 4) [.load, .m1, .m2] 2 .a ≠ serialValue (late 5 6) [.load, .m1, .m2] 2 .a := by
  refine ⟨Demo.single 1 4, late_single 5 6, by decide, by decide, ?_, by decide, by decide⟩
  intro d hd i x
  cases i
  · have : d < 2 := by omega
    simp only [late, Demo.net, Demo.body, if_pos this]
  · rfl
  · rfl

end threaded

/-! ### The loaders that work step by step -/

section loaders
variable {K : Type} [Field K] [LinearOrder K]

omit [LinearOrder K] in
theorem cloudSteps_take (rows : List (List (Option K))) : ∀ (m : Option (List (Option K))) (k : Nat),
    NcInput.cloudSteps m (rows.take k) = (NcInput.cloudSteps m rows).take k := by
  induction rows with
  | nil => intro m k; simp [NcInput.cloudSteps]
  | cons r rows ih =>
    intro m k
    cases k with
    | zero => simp [NcInput.cloudSteps]
    | succ k => simp [NcInput.cloudSteps, ih]

/-- The cloud factors of an HRRR run that loads step by step: those of the first `k` steps are those of a run over the
first `k` steps. -/
theorem C137_cloud_steps (rows : List (List (Option K))) (k : Nat) :
    NcInput.serialClouds (rows.take k) = (NcInput.serialClouds rows).take k := by
  have hsome : ∀ (rows : List (List (Option K))) (m : Option (List (Option K))), ∀ x ∈ NcInput.cloudSteps m rows, x.isSome = true := by
    intro rows
    induction rows with
    | nil => intro m x hx; simp [NcInput.cloudSteps] at hx
    | cons r rows ih =>
      intro m x hx
      simp only [NcInput.cloudSteps, List.mem_cons] at hx
      rcases hx with rfl | hx
      · cases m <;> rfl
      · exact ih _ x hx
  have hl : ∀ (l : List (Option (List (Option K)))) (k : Nat), (∀ x ∈ l, x.isSome = true) →
      (l.take k).filterMap id = (l.filterMap id).take k := by
    intro l
    induction l with
    | nil => intro k _; simp
    | cons x l ih =>
      intro k hx
      cases k with
      | zero => simp
      | succ k =>
        obtain ⟨y, rfl⟩ := Option.isSome_iff_exists.1 (hx x (by simp))
        simpa using ih k fun z hz => hx z (by simp [hz])
  unfold NcInput.serialClouds
  rw [cloudSteps_take, hl _ _ (hsome rows none)]

omit [LinearOrder K] in
/-- The hourly precipitation from the running totals of WRF: the first `k + 1` values need the first `k + 1`
totals. -/
theorem C137_wrf_precip (t : Option K) (ts : List (Option K)) (k : Nat) :
    Grid.wrfPrecip (t :: ts.take k) = (Grid.wrfPrecip (t :: ts)).map (·.take (k + 1)) := by
  have key : ∀ (ts : List (Option K)) (t : Option K) (k : Nat),
      Grid.diffRest (t :: ts.take k) = (Grid.diffRest (t :: ts)).take k := by
    intro ts
    induction ts with
    | nil => intro t k; simp [Grid.diffRest]
    | cons u ts ih =>
      intro t k
      cases k with
      | zero => simp [Grid.diffRest]
      | succ k => simp [Grid.diffRest, ih]
  simp [Grid.wrfPrecip, key]

/-- The cloud factor of a whole HRRR period at a daylight time does not depend on the other times. -/
theorem C137_cloud_day [IsStrictOrderedRing K] (xs ys : List (Option K × K)) (k : Nat) (r : K) (hx : Grid.Daylight xs k r)
    (h : xs.take (k + 1) = ys.take (k + 1)) : (Grid.hrrrCloud xs)[k]? = (Grid.hrrrCloud ys)[k]? := by
  have e : xs[k]? = ys[k]? := by
    have := congrArg (·[k]?) h
    simpa [List.getElem?_take] using this
  have hy : Grid.Daylight ys k r := by
    obtain ⟨s, b, h1, h2⟩ := hx
    exact ⟨s, b, by rw [← e]; exact h1, h2⟩
  rw [Grid.C74_day xs k r hx, Grid.C74_day ys k r hy]

/-- At night it depends on the data up to the next daylight time `j` only. -/
theorem C137_cloud_night [IsStrictOrderedRing K] (xs ys : List (Option K × K)) (i j k : Nat) (a b : K) (hik : i < k) (hkj : k < j)
    (hi : Grid.Daylight xs i a) (hj : Grid.Daylight xs j b) (hgap : ∀ m r, i < m → m < j → ¬ Grid.Daylight xs m r)
    (h : xs.take (j + 1) = ys.take (j + 1)) : (Grid.hrrrCloud xs)[k]? = (Grid.hrrrCloud ys)[k]? := by
  have e : ∀ m, m ≤ j → xs[m]? = ys[m]? := by
    intro m hm
    have := congrArg (·[m]?) h
    simpa [List.getElem?_take, Nat.lt_succ_of_le hm] using this
  have hd : ∀ m r, m ≤ j → (Grid.Daylight xs m r ↔ Grid.Daylight ys m r) := by
    intro m r hm
    unfold Grid.Daylight
    rw [e m hm]
  rw [(Grid.C74_night xs i j k a b hik hkj hi hj hgap).1,
    (Grid.C74_night ys i j k a b hik hkj ((hd i a (by omega)).1 hi) ((hd j b le_rfl).1 hj)
      fun m r h1 h2 h3 => hgap m r h1 h2 ((hd m r (by omega)).2 h3)).1]

/-- The evening's cloud factor (index 1) changes when only the radiation of the next morning (index 2) changes. -/
theorem C137_cloud_fails : ∃ xs ys : List (Option ℚ × ℚ), xs.take 2 = ys.take 2 ∧
    (Grid.hrrrCloud xs)[1]? ≠ (Grid.hrrrCloud ys)[1]? :=
  ⟨[(some 300, 600), (some 0, 0), (some 300, 600)], [(some 300, 600), (some 0, 0), (some 600, 600)], by decide +kernel,
    by decide +kernel⟩

example : (Grid.hrrrCloud [(some (300 : ℚ), 600), (some 0, 0), (some 600, 600), (some 90, 100)]).take 3 =
    Grid.hrrrCloud [(some 300, 600), (some 0, 0), (some 600, 600)] ∧
    Grid.wrfPrecip [some (1 : ℚ), some 3, some 7] = some [some 0, some 2, some 4] ∧
    Grid.wrfPrecip [some (1 : ℚ), some 3] = some [some 0, some 2] := by
  decide +kernel

end loaders

/-! ### Storms -/

section storms
open Verif.Storms Verif.StormRun

/-- Storms of a longer record: storm number `j` of the shorter record is storm number `j` of the longer one, with the
same start; it is the same storm unless it was going on in the last row of the shorter record, and then it can only
last longer. Further storms begin after the shorter record. -/
theorem C137_storms {K : Type} [LinearOrder K] [AddCommMonoid K] (thr : K) (n : Nat) (a b : List (List (Option K))) (j : Nat) :
    (∀ s, (storms thr n a)[j]? = some s → ∃ s', (storms thr n (a ++ b))[j]? = some s' ∧ s'.start = s.start ∧ s.stop ≤ s'.stop ∧
      (s.stop + 1 < a.length → s' = s)) ∧
    ((storms thr n a)[j]? = none → ∀ s', (storms thr n (a ++ b))[j]? = some s' → a.length ≤ s'.start) := by
  obtain ⟨cl, cur, cur', new, h1, h2, h3, h4⟩ := storms_append thr n a b
  have hlen : cur.length = cur'.length := by
    rcases h4 with ⟨rfl, rfl⟩ | ⟨s, s', rfl, rfl, -⟩ <;> rfl
  rw [h1, h2]
  constructor
  · intro s hs
    rcases Nat.lt_or_ge j cl.length with hj | hj
    · rw [List.getElem?_append_left hj] at hs
      refine ⟨s, ?_, rfl, le_rfl, fun _ => rfl⟩
      rw [List.append_assoc, List.getElem?_append_left hj, hs]
    · rw [List.getElem?_append_right hj] at hs
      rcases h4 with ⟨rfl, rfl⟩ | ⟨u, u', rfl, rfl, e1, e2, e3⟩
      · cases hs
      · have hj0 : j - cl.length = 0 := by
          rcases Nat.eq_zero_or_pos (j - cl.length) with h | h
          · exact h
          · rw [List.getElem?_eq_none (by simp only [List.length_singleton]; omega)] at hs; cases hs
        rw [hj0] at hs
        cases hs
        refine ⟨u', ?_, e1, e2, fun h => by omega⟩
        rw [List.append_assoc, List.getElem?_append_right hj, hj0]
        rfl
  · intro hn s' hs'
    have hj : (cl ++ cur').length ≤ j := by
      rw [List.getElem?_eq_none_iff] at hn
      simp only [List.length_append] at hn ⊢
      omega
    rw [List.getElem?_append_right hj] at hs'
    exact h3 s' (List.mem_of_getElem? hs')

/-- The precipitation that is kept (during storms) in the first rows does not depend on the later ones. -/
theorem C137_clip {K : Type} [Field K] [LinearOrder K] (thr : K) (n : Nat) (a b : List (List (Option K))) :
    (clip (storms thr n (a ++ b)) (a ++ b)).take a.length = clip (storms thr n a) a := by
  apply List.ext_getElem?
  intro i
  unfold clip
  rw [List.getElem?_take]
  split
  · rename_i hi
    rw [List.getElem?_mapIdx, List.getElem?_mapIdx, List.getElem?_append_left hi]
    unfold clipRow
    rw [any_append thr n a b i hi]
  · rename_i hi
    rw [List.getElem?_eq_none]
    simpa using hi

/-- C137 for the table the marks2017 model runs on: its first rows do not depend on later measurements. -/
def C137_full : Prop := ∀ (thr : ℝ) (n width : Nat) (a b c : List (List (Option ℝ))), 0 ≤ thr →
  (∀ row ∈ a ++ b ++ c, row.length = width) → Nonneg (a ++ b ++ c) →
  (corrected thr n width (a ++ b)).take a.length = (corrected thr n width (a ++ c)).take a.length

/-- In the table of a longer record the first rows of a station are those of the shorter record times one number. -/
theorem C137_factor_partial (thr : ℝ) (n width : Nat) (a b : List (List (Option ℝ))) (k : Nat) (hk : k < width) :
    ∃ c d : ℝ, ∀ i x, i < a.length → at' (clip (storms thr n a) a) i k = some x →
      at' (corrected thr n width a) i k = some (x.map (· * c)) ∧
      at' (corrected thr n width (a ++ b)) i k = some (x.map (· * d)) := by
  have key : ∀ (tbl : List (List (Option ℝ))) (i : Nat) (x : Option ℝ), at' (clip (storms thr n tbl) tbl) i k = some x →
      at' (corrected thr n width tbl) i k = some (x.map (· * correction tbl (clip (storms thr n tbl) tbl) k)) := by
    intro tbl i x h
    unfold corrected clipAndCorrect
    simp only
    have hk' : k ∈ (if (List.range width).length = 0 then List.range width else List.range width) := by simpa using hk
    generalize (if (List.range width).length = 0 then List.range width else List.range width) = st at *
    unfold at' at h ⊢
    rw [List.getElem?_map]
    cases h2 : (clip (storms thr n tbl) tbl)[i]? with
    | none => rw [h2] at h; cases h
    | some row =>
      rw [h2] at h
      simp only [Option.bind_some] at h
      simp only [Option.map_some, Option.bind_some, correctRow, List.getElem?_mapIdx, h, if_pos hk']
  refine ⟨_, _, fun i x hi hx => ⟨key a i x hx, key (a ++ b) i x ?_⟩⟩
  rw [← C137_clip thr n a b] at hx
  unfold at' at hx ⊢
  rwa [List.getElem?_take, if_pos hi] at hx

/-- Missing in the previous theorem: that the number is 1. It is, if the station has no precipitation outside the
storms in the longer record. -/
theorem C137_nodrizzle_partial (thr : ℝ) (n width : Nat) (a b : List (List (Option ℝ))) (k : Nat) (hk : k < width)
    (h : ∀ i x, Outside (storms thr n (a ++ b)) i → at' (a ++ b) i k = some (some x) → x = 0) (i : Nat) (hi : i < a.length) :
    at' (corrected thr n width (a ++ b)) i k = at' (corrected thr n width a) i k := by
  have one : ∀ tbl : List (List (Option ℝ)), (∀ i x, Outside (storms thr n tbl) i → at' tbl i k = some (some x) → x = 0) →
      correction tbl (clip (storms thr n tbl) tbl) k = 1 := by
    intro tbl ht
    unfold correction
    simp only [total_clip_eq _ tbl k ht]
    split
    · rfl
    · rename_i h0
      exact div_self h0
  have ha : ∀ i x, Outside (storms thr n a) i → at' a i k = some (some x) → x = 0 := by
    intro j x ho hx
    have hj : j < a.length := by
      by_contra hc
      unfold at' at hx
      rw [List.getElem?_eq_none (not_lt.1 hc)] at hx
      cases hx
    refine h j x ((outside_append thr n a b j hj).2 ho) ?_
    unfold at' at hx ⊢
    rwa [List.getElem?_append_left hj]
  have hk' : k ∈ (if (List.range width).length = 0 then List.range width else List.range width) := by simpa using hk
  unfold corrected clipAndCorrect at'
  simp only
  generalize (if (List.range width).length = 0 then List.range width else List.range width) = st at *
  have hc := congrArg (·[i]?) (C137_clip thr n a b)
  simp only [List.getElem?_take, if_pos hi] at hc
  rw [List.getElem?_map, List.getElem?_map, hc]
  cases (clip (storms thr n a) a)[i]? with
  | none => rfl
  | some row =>
    simp only [Option.map_some, Option.bind_some, correctRow, List.getElem?_mapIdx]
    rw [one _ h, one _ ha]

/-- Drizzle at the end of the record raises the precipitation of the first step: a gauge with 1 mm, then nothing, then
1/4 mm below the threshold. -/
theorem C137_drizzle_fails :
    corrected (1 / 2) 1 1 ([[some 1], [some 0]] ++ [[some 0]]) = [[some 1], [some 0], [some 0]] ∧
    corrected (1 / 2) 1 1 ([[some 1], [some 0]] ++ [[some (1 / 4)]]) = [[some (5 / 4)], [some 0], [some 0]] := by
  have h1 : storms (1 / 2 : ℝ) 1 ([[some 1], [some 0]] ++ [[some 0]]) = [⟨0, 1, [some 1]⟩] := by
    simp [storms, trackingByStation, label, trackLoop, trackStep, trackRow, trackClose, wetRow, rowMax]
    norm_num [addN]
  have h2 : storms (1 / 2 : ℝ) 1 ([[some 1], [some 0]] ++ [[some (1 / 4)]]) = [⟨0, 1, [some 1]⟩] := by
    simp [storms, trackingByStation, label, trackLoop, trackStep, trackRow, trackClose, wetRow, rowMax]
    norm_num [addN]
  constructor
  · rw [corrected, h1]
    simp [clipAndCorrect, clip, clipRow, correctRow, correction, columnSum]
  · rw [corrected, h2]
    simp [clipAndCorrect, clip, clipRow, correctRow, correction, columnSum]
    norm_num

/-- C137 is false of the corrected table. -/
theorem C137_fails : ¬ C137_full := by
  intro h
  have := h (1 / 2) 1 1 [[some 1], [some 0]] [[some 0]] [[some (1 / 4)]] (by norm_num) (by simp) (by
    intro row hrow x hx
    simp at hrow
    rcases hrow with rfl | rfl | rfl <;> simp at hx <;> rw [hx] <;> norm_num)
  rw [C137_drizzle_fails.1, C137_drizzle_fails.2] at this
  simp at this
  norm_num at this

/-- A record with a finished and a running storm, and a longer one: the finished storm stays, the running one goes on,
a third begins. -/
example : storms (1 / 2 : ℚ) 1 [[some 1], [some 0], [some 2]] = [⟨0, 1, [some 1]⟩, ⟨2, 2, [some 2]⟩] ∧
    storms (1 / 2 : ℚ) 1 ([[some 1], [some 0], [some 2]] ++ [[some 3], [some 0], [some 0], [some 4]]) =
      [⟨0, 1, [some 1]⟩, ⟨2, 4, [some 5]⟩, ⟨6, 6, [some 4]⟩] := by
  decide +kernel

end storms

end Verif.Causal
