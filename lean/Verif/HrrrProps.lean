import Verif.Hrrr
import Mathlib.Tactic.NormNum
import Mathlib.Tactic.Linarith
import Mathlib.Tactic.FieldSimp

/-
C145: every value of the HRRR tables belongs to its time and its cell.
-/

namespace Verif.Hrrr

variable {T T' S : Type}

/-! ### Specification -/

/-- Row `i` and column `j` of a table are the time `t` and the cell `s` and hold `v`. -/
def Cell (f : Frame T S) (i j : Nat) (t : T) (s : S) (v : Option ℝ) : Prop :=
  f.index[i]? = some t ∧ f.cols[j]? = some s ∧ f.val i j = v

/-- A table has the value `v` for the time `t` and the cell `s`. -/
def Entry (f : Frame T S) (t : T) (s : S) (v : Option ℝ) : Prop := ∃ i j, Cell f i j t s v

/-- All labels of a table are different. -/
def Distinct (f : Frame T S) : Prop := f.index.Nodup ∧ f.cols.Nodup

/-- The tables have the labels `idx` and `cols`. -/
structure Same (d : Data T S) (idx : List T) (cols : List S) : Prop where
  airTemp : d.airTemp.index = idx ∧ d.airTemp.cols = cols
  humidity : d.humidity.index = idx ∧ d.humidity.cols = cols
  precip : d.precip.index = idx ∧ d.precip.cols = cols
  shortWave : d.shortWave.index = idx ∧ d.shortWave.cols = cols
  wind : ∀ u v, d.wind = some (u, v) → (u.index = idx ∧ u.cols = cols) ∧ (v.index = idx ∧ v.cols = cols)

/-- The vapor pressure for a temperature in Celsius and a humidity in percent. -/
noncomputable def vaporOf : Option ℝ → Option ℝ → Option ℝ
  | some a, some h => if 0 < a + 27315 / 100 then some (Vapor.sat (a + 27315 / 100) * (h / 100)) else none
  | _, _ => none

/-! ### Auxiliary -/

private theorem mapM_get (loc : T → Option T') : ∀ (l : List T) (r : List T'), l.mapM loc = some r →
    r.length = l.length ∧ ∀ (i : Nat) (t : T), l[i]? = some t → ∃ t', loc t = some t' ∧ r[i]? = some t' := by
  intro l
  induction l with
  | nil => intro r h; simp at h; subst h; simp
  | cons a l ih =>
    intro r h
    rw [List.mapM_cons] at h
    cases ha : loc a with
    | none => rw [ha] at h; simp at h
    | some a' =>
      rw [ha] at h
      cases hl : l.mapM loc with
      | none => rw [hl] at h; simp at h
      | some l' =>
        rw [hl] at h
        simp at h
        subst h
        obtain ⟨h1, h2⟩ := ih l' hl
        refine ⟨by simp [h1], ?_⟩
        intro i t ht
        cases i with
        | zero => simp at ht; subst ht; exact ⟨a', ha, by simp⟩
        | succ i => simpa using h2 i t (by simpa using ht)

private theorem mapM_ok (loc : T → Option T') : ∀ l : List T, (∀ t ∈ l, (loc t).isSome = true) → ∃ r, l.mapM loc = some r := by
  intro l
  induction l with
  | nil => intro _; exact ⟨[], by simp⟩
  | cons a l ih =>
    intro h
    obtain ⟨r, hr⟩ := ih fun t ht => h t (by simp [ht])
    obtain ⟨a', ha⟩ := Option.isSome_iff_exists.1 (h a (by simp))
    exact ⟨a' :: r, by rw [List.mapM_cons, ha, hr]; rfl⟩

section
variable [DecidableEq T] [DecidableEq S]

private theorem positions_self {L : Type} [DecidableEq L] (l : List L) : positions l l = .ok some := if_pos rfl

private theorem reindex_self (f : Frame T S) : f.reindex f.index f.cols = .ok f := by
  unfold Frame.reindex
  rw [positions_self, positions_self]
  rfl

private theorem positions_spec {L : Type} [DecidableEq L] {old new : List L} {p : Nat → Option Nat} (h : positions old new = .ok p) {i : Nat} {t : L}
    (hi : new[i]? = some t) : (∀ k, old.Nodup → old[k]? = some t → p i = some k) ∧ (t ∉ old → p i = none) := by
  unfold positions at h
  by_cases he : old = new
  · rw [if_pos he] at h
    injection h with h
    subst h he
    constructor
    · intro k hn hk
      have h1 := (List.getElem?_eq_some_iff.1 hi)
      have h2 := (List.getElem?_eq_some_iff.1 hk)
      obtain ⟨a1, b1⟩ := h1
      obtain ⟨a2, b2⟩ := h2
      have := (hn.getElem_inj_iff (hi := a1) (hj := a2)).1 (b1.trans b2.symm)
      rw [this]
    · intro hn
      exact absurd (List.mem_of_getElem? hi) hn
  · rw [if_neg he] at h
    by_cases hn : old.Nodup
    · rw [if_pos hn] at h
      injection h with h
      subst h
      constructor
      · intro k _ hk
        obtain ⟨a2, b2⟩ := List.getElem?_eq_some_iff.1 hk
        have hm : t ∈ old := List.mem_of_getElem? hk
        have : old.idxOf t = k := by rw [← b2]; exact hn.idxOf_getElem k a2
        simp [hi, hm, this]
      · intro hm
        simp [hi, hm]
    · rw [if_neg hn] at h
      cases h

/-- `reindex` goes by labels. -/
private theorem reindex_spec {f g : Frame T S} {idx : List T} {cols : List S} (h : f.reindex idx cols = .ok g) :
    g.index = idx ∧ g.cols = cols ∧
      (∀ i j t s v, idx[i]? = some t → cols[j]? = some s → Distinct f → Entry f t s v → g.val i j = v) ∧
      (∀ i j t s, idx[i]? = some t → cols[j]? = some s → (t ∉ f.index ∨ s ∉ f.cols) → g.val i j = none) := by
  unfold Frame.reindex at h
  cases ha : positions f.index idx with
  | error e => rw [ha] at h; cases h
  | ok a =>
    rw [ha] at h
    cases hb : positions f.cols cols with
    | error e => rw [hb] at h; cases h
    | ok b =>
      rw [hb] at h
      injection h with h
      subst h
      refine ⟨rfl, rfl, ?_, ?_⟩
      · rintro i j t s v hi hj hd ⟨k, l, hk, hl, hv⟩
        have e1 := (positions_spec ha hi).1 k hd.1 hk
        have e2 := (positions_spec hb hj).1 l hd.2 hl
        simp [e1, e2, hv]
      · rintro i j t s hi hj hn
        rcases hn with hn | hn
        · simp [(positions_spec ha hi).2 hn]
        · have := (positions_spec hb hj).2 hn
          simp only [this]
          cases a i <;> simp

private theorem union_self {L : Type} [DecidableEq L] (a : List L) : union a a = a := if_pos rfl

private theorem mem_union {L : Type} [DecidableEq L] {a b : List L} {t : L} (h : t ∈ a ∨ t ∈ b) : t ∈ union a b := by
  unfold union
  by_cases he : a = b
  · rw [if_pos he]; subst he; tauto
  · rw [if_neg he]
    by_cases ht : t ∈ a
    · simp [ht]
    · rcases h with h | h
      · exact absurd h ht
      · simp [h, ht]

private theorem nodup_union {L : Type} [DecidableEq L] {a b : List L} (ha : a.Nodup) (hb : b.Nodup) : (union a b).Nodup := by
  unfold union
  by_cases he : a = b
  · rw [if_pos he]; exact ha
  · rw [if_neg he]
    refine List.nodup_append.2 ⟨ha, hb.filter _, ?_⟩
    intro x hx y hy hxy
    subst hxy
    simp at hy
    exact hy.2 hx

private theorem byLabel_spec {op : ℝ → ℝ → ℝ} {f g r : Frame T S} (h : Frame.byLabel op f g = .ok r) (hf : Distinct f) (hg : Distinct g)
    {t : T} {s : S} {x y : Option ℝ} (hx : Entry f t s x) (hy : Entry g t s y) :
    Distinct r ∧ Entry r t s (x.bind fun x => y.map fun y => op x y) := by
  unfold Frame.byLabel at h
  simp only at h
  cases h1 : f.reindex (union f.index g.index) (union f.cols g.cols) with
  | error e => rw [h1] at h; cases h
  | ok f' =>
    rw [h1] at h
    cases h2 : g.reindex (union f.index g.index) (union f.cols g.cols) with
    | error e => simp only [h2] at h; cases h
    | ok g' =>
      simp only [h2] at h
      injection h with h
      subst h
      refine ⟨⟨nodup_union hf.1 hg.1, nodup_union hf.2 hg.2⟩, ?_⟩
      obtain ⟨i0, j0, a1, a2, a3⟩ := hx
      obtain ⟨i, hi⟩ := List.getElem?_of_mem (mem_union (b := g.index) (Or.inl (List.mem_of_getElem? a1)))
      obtain ⟨j, hj⟩ := List.getElem?_of_mem (mem_union (b := g.cols) (Or.inl (List.mem_of_getElem? a2)))
      refine ⟨i, j, hi, hj, ?_⟩
      simp only
      rw [(reindex_spec h1).2.2.1 i j t s x hi hj hf ⟨i0, j0, a1, a2, a3⟩, (reindex_spec h2).2.2.1 i j t s y hi hj hg hy]

end

private theorem flat_get (f g : Frame T S) {i j : Nat} (hi : i < f.index.length) (hj : j < f.cols.length) :
    (flat f g)[i * f.cols.length + j]? = some (f.val i j, g.val i j) := by
  have hlt : i * f.cols.length + j < f.index.length * f.cols.length := by
    calc i * f.cols.length + j < i * f.cols.length + f.cols.length := by omega
      _ = (i + 1) * f.cols.length := by rw [Nat.succ_mul]
      _ ≤ _ := Nat.mul_le_mul_right _ hi
  have hpos : 0 < f.cols.length := by omega
  have e1 : (i * f.cols.length + j) / f.cols.length = i := by
    rw [Nat.mul_comm, Nat.mul_add_div hpos, Nat.div_eq_of_lt hj, Nat.add_zero]
  have e2 : (i * f.cols.length + j) % f.cols.length = j := by
    rw [Nat.mul_comm, Nat.mul_add_mod, Nat.mod_eq_of_lt hj]
  unfold flat
  rw [List.getElem?_map, List.getElem?_range hlt]
  simp only [Option.map_some, e1, e2]

private theorem conv_percent (a h : Option ℝ) (hz : a ≠ some (-(27315 / 100))) :
    Vapor.mulNan (Vapor.satiPy (a.map (· + 27315 / 100))) (h.map (· / 100)) = vaporOf a h := by
  cases a with
  | none => cases h <;> rfl
  | some a =>
    have hz : a + 27315 / 100 ≠ 0 := fun hc => hz (by congr 1; linarith)
    cases h with
    | none =>
      simp only [Vapor.satiPy, Option.map_some, Option.map_none, vaporOf]
      cases (if a + 27315 / 100 < 0 then none else if a + 27315 / 100 = 0 then some 0 else some (Vapor.sat (a + 27315 / 100)) : Option ℝ) <;> rfl
    | some h =>
      simp only [Vapor.satiPy, Option.map_some, vaporOf]
      rcases lt_trichotomy (a + 27315 / 100) 0 with hl | hl | hl
      · rw [if_pos hl, if_neg (not_lt.2 hl.le)]; rfl
      · exact absurd hl hz
      · rw [if_neg (not_lt.2 hl.le), if_neg hz, if_pos hl]; rfl

private theorem vapor_spec {ta rh : Frame T S} (hi : ta.index.length = rh.index.length) (hj : ta.cols.length = rh.cols.length)
    (h0 : ta.index ≠ []) (h1 : ta.cols ≠ []) {r : ℝ} (hr : rh.val 0 0 = some r) (hr1 : 1 ≤ r)
    (hz : ∀ i j, ta.val i j ≠ some (-(27315 / 100))) :
    ∃ vp, vapor ta rh = .ok vp ∧ vp.index = ta.index ∧ vp.cols = ta.cols ∧
      ∀ i j, i < ta.index.length → j < ta.cols.length → vp.val i j = vaporOf (ta.val i j) (rh.val i j) := by
  have l0 := List.length_pos_iff.2 h0
  have l1 := List.length_pos_iff.2 h1
  have hfirst := flat_get ta rh l0 l1
  simp only [Nat.zero_mul, Nat.add_zero] at hfirst
  have hrh : Vapor.rh2vp (flat ta rh) = .ok ((flat ta rh).map fun x => Vapor.mulNan (Vapor.satiPy (x.1.map (· + 27315 / 100))) (x.2.map (· / 100))) := by
    cases hfl : flat ta rh with
    | nil => rw [hfl] at hfirst; simp at hfirst
    | cons x l =>
      rw [hfl] at hfirst
      simp only [List.getElem?_cons_zero, Option.some.injEq] at hfirst
      subst hfirst
      simp [Vapor.rh2vp, hr, hr1]
  refine ⟨⟨ta.index, ta.cols, fun i j => (((flat ta rh).map fun x => Vapor.mulNan (Vapor.satiPy (x.1.map (· + 27315 / 100))) (x.2.map (· / 100)))[i * ta.cols.length + j]?).join⟩,
    by unfold vapor; rw [if_pos ⟨hi, hj⟩, hrh], rfl, rfl, ?_⟩
  intro i j h2 h3
  simp only [List.getElem?_map, flat_get ta rh h2 h3, Option.map_some, Option.join_some]
  exact conv_percent _ _ (hz i j)

/-! ### Theorems -/

/-- Tables with the same labels, humidity in percent with at least one percent in the first place: every value handed on
belongs to the time and the cell it was computed from, and the times are those of the time zone. -/
theorem C145_same_partial [DecidableEq T'] [DecidableEq S] (loc : T → Option T') (clear : T' → ℝ) (d : Data T S) (idx : List T) (cols : List S)
    (hs : Same d idx cols) (hl : ∀ t ∈ idx, (loc t).isSome = true) (h0 : idx ≠ []) (h1 : cols ≠ []) {r0 : ℝ} (hr : d.humidity.val 0 0 = some r0)
    (hr1 : 1 ≤ r0) (hz : ∀ i j, d.airTemp.val i j ≠ some (-(27315 / 100))) :
    ∃ r, parse loc clear d = .ok r ∧ ∀ i j t s, idx[i]? = some t → cols[j]? = some s → ∃ t', loc t = some t' ∧
      Cell r.airTemp i j t' s (d.airTemp.val i j) ∧
      Cell r.vapor i j t' s (vaporOf (d.airTemp.val i j) (d.humidity.val i j)) ∧
      Cell r.precip i j t' s (d.precip.val i j) ∧
      (∀ u v, d.wind = some (u, v) →
        Cell r.speed i j t' s ((u.val i j).bind fun x => (v.val i j).map fun y => Grid.windSpeed x y) ∧
        Cell r.direction i j t' s ((v.val i j).bind fun y => (u.val i j).map fun x => Grid.windDirection x y)) ∧
      (d.wind = none → Cell r.speed i j t' s none ∧ Cell r.direction i j t' s none) ∧
      ∃ c, Cell r.cloud i j t' s c ∧ (Grid.hrrrCloud ((List.range idx.length).map fun k =>
        (d.shortWave.val k j, ((idx[k]?.bind loc).map clear).getD 0)))[i]? = some c := by
  obtain ⟨idx', he⟩ := mapM_ok loc idx hl
  obtain ⟨hlen, hget⟩ := mapM_get loc idx idx' he
  have hloc : ∀ f : Frame T S, f.index = idx ∧ f.cols = cols → f.localize loc = .ok ⟨idx', cols, f.val⟩ := by
    rintro f ⟨rfl, rfl⟩
    unfold Frame.localize
    rw [he]
  have h0' : idx' ≠ [] := by
    intro hc
    rw [hc] at hlen
    exact h0 (List.length_eq_zero_iff.1 (by simpa using hlen.symm))
  obtain ⟨vp, v1, v2, v3, v4⟩ := vapor_spec (ta := ⟨idx', cols, d.airTemp.val⟩) (rh := ⟨idx', cols, d.humidity.val⟩) rfl rfl h0' h1 hr hr1 hz
  have hri : ∀ val : Nat → Nat → Option ℝ, Frame.reindex ⟨idx', cols, val⟩ idx' cols = .ok ⟨idx', cols, val⟩ := fun val => reindex_self ⟨idx', cols, val⟩
  have hfin : ∀ i j t s, idx[i]? = some t → cols[j]? = some s → ∃ t', loc t = some t' ∧ idx'[i]? = some t' ∧ i < idx'.length ∧ j < cols.length := by
    intro i j t s hi hj
    obtain ⟨t', e1, e2⟩ := hget i t hi
    exact ⟨t', e1, e2, (List.getElem?_eq_some_iff.1 e2).1, (List.getElem?_eq_some_iff.1 hj).1⟩
  have hcl : ∀ j i, i < idx'.length → ∃ c, (cloud clear (⟨idx', cols, d.shortWave.val⟩ : Frame T' S)).val i j = c ∧
      (Grid.hrrrCloud ((List.range idx.length).map fun k => (d.shortWave.val k j, ((idx[k]?.bind loc).map clear).getD 0)))[i]? = some c := by
    intro j i hi
    have e : (List.range idx.length).map (fun k => (d.shortWave.val k j, ((idx[k]?.bind loc).map clear).getD 0)) =
        (List.range idx'.length).map fun k => (d.shortWave.val k j, (idx'[k]?.map clear).getD 0) := by
      rw [hlen]
      apply List.map_congr_left
      intro k hk
      have hk : k < idx.length := List.mem_range.1 hk
      obtain ⟨t', e1, e2⟩ := hget k idx[k] (List.getElem?_eq_getElem hk)
      rw [List.getElem?_eq_getElem hk, e2]
      simp [e1]
    rw [e]
    unfold cloud
    simp only
    have hlt : i < (Grid.hrrrCloud ((List.range idx'.length).map fun k => (d.shortWave.val k j, (idx'[k]?.map clear).getD 0))).length := by
      simpa [Grid.hrrrCloud] using hi
    rw [List.getElem?_eq_getElem hlt]
    exact ⟨_, rfl, rfl⟩
  cases hw : d.wind with
  | none =>
    have hall : localizeAll loc d = .ok ⟨⟨idx', cols, d.airTemp.val⟩, ⟨idx', cols, d.humidity.val⟩, ⟨idx', cols, d.precip.val⟩, ⟨idx', cols, d.shortWave.val⟩, none⟩ := by
      unfold localizeAll
      rw [hloc _ hs.airTemp, hloc _ hs.humidity, hloc _ hs.precip, hloc _ hs.shortWave, hw]
      rfl
    refine ⟨⟨⟨idx', cols, d.airTemp.val⟩, vp, ⟨idx', cols, fun _ _ => none⟩, ⟨idx', cols, fun _ _ => none⟩, ⟨idx', cols, d.precip.val⟩, cloud clear ⟨idx', cols, d.shortWave.val⟩⟩, ?_, ?_⟩
    · unfold parse
      rw [hall]
      show parseLocal clear _ = _
      unfold parseLocal
      simp only [v1, hri]
      rfl
    · intro i j t s hi hj
      obtain ⟨t', e1, e2, e3, e4⟩ := hfin i j t s hi hj
      obtain ⟨c, c1, c2⟩ := hcl j i e3
      refine ⟨t', e1, ⟨e2, hj, rfl⟩, ⟨by rw [v2]; exact e2, by rw [v3]; exact hj, v4 i j e3 e4⟩, ⟨e2, hj, rfl⟩, ?_, ?_, ⟨c, ⟨e2, hj, c1⟩, c2⟩⟩
      · intro u v huv; cases huv
      · intro _; exact ⟨⟨e2, hj, rfl⟩, ⟨e2, hj, rfl⟩⟩
  | some uv =>
    obtain ⟨u, v⟩ := uv
    obtain ⟨hu, hv⟩ := hs.wind u v hw
    have hall : localizeAll loc d = .ok ⟨⟨idx', cols, d.airTemp.val⟩, ⟨idx', cols, d.humidity.val⟩, ⟨idx', cols, d.precip.val⟩, ⟨idx', cols, d.shortWave.val⟩,
        some (⟨idx', cols, u.val⟩, ⟨idx', cols, v.val⟩)⟩ := by
      unfold localizeAll
      rw [hloc _ hs.airTemp, hloc _ hs.humidity, hloc _ hs.precip, hloc _ hs.shortWave, hw]
      simp only
      rw [hloc _ hu, hloc _ hv]
      rfl
    have hwind : wind (⟨idx', cols, d.airTemp.val⟩ : Frame T' S) (some (⟨idx', cols, u.val⟩, ⟨idx', cols, v.val⟩)) =
        .ok (⟨idx', cols, fun i j => (u.val i j).bind fun x => (v.val i j).map fun y => Grid.windSpeed x y⟩,
          ⟨idx', cols, fun i j => (v.val i j).bind fun y => (u.val i j).map fun x => Grid.windDirection x y⟩) := by
      unfold wind Frame.byLabel Frame.byPosition
      simp only [union_self, hri, and_self, if_true]
    refine ⟨⟨⟨idx', cols, d.airTemp.val⟩, vp, ⟨idx', cols, fun i j => (u.val i j).bind fun x => (v.val i j).map fun y => Grid.windSpeed x y⟩,
      ⟨idx', cols, fun i j => (v.val i j).bind fun y => (u.val i j).map fun x => Grid.windDirection x y⟩, ⟨idx', cols, d.precip.val⟩, cloud clear ⟨idx', cols, d.shortWave.val⟩⟩, ?_, ?_⟩
    · unfold parse
      rw [hall]
      show parseLocal clear _ = _
      unfold parseLocal
      simp only [v1, hri, hwind]
      rfl
    · intro i j t s hi hj
      obtain ⟨t', e1, e2, e3, e4⟩ := hfin i j t s hi hj
      obtain ⟨c, c1, c2⟩ := hcl j i e3
      refine ⟨t', e1, ⟨e2, hj, rfl⟩, ⟨by rw [v2]; exact e2, by rw [v3]; exact hj, v4 i j e3 e4⟩, ⟨e2, hj, rfl⟩, ?_, ?_, ⟨c, ⟨e2, hj, c1⟩, c2⟩⟩
      · intro u' v' huv
        simp only [Option.some.injEq, Prod.mk.injEq] at huv
        obtain ⟨rfl, rfl⟩ := huv
        exact ⟨⟨e2, hj, rfl⟩, ⟨e2, hj, rfl⟩⟩
      · intro hn; cases hn

/-- Whatever the labels of the tables are: precipitation and wind speed go by the labels. A time or cell that the table of the
precipitation does not have is NaN. -/
theorem C145_label [DecidableEq T] [DecidableEq S] (clear : T → ℝ) (d : Data T S) (r : Parsed T S) (h : parseLocal clear d = .ok r)
    (t : T) (s : S) (ht : t ∈ d.airTemp.index) (hs : s ∈ d.airTemp.cols) :
    (∀ a, Entry d.airTemp t s a → Entry r.airTemp t s a) ∧
    (∀ p, Distinct d.precip → Entry d.precip t s p → Entry r.precip t s p) ∧
    ((t ∉ d.precip.index ∨ s ∉ d.precip.cols) → Entry r.precip t s none) ∧
    (∀ u v x y, d.wind = some (u, v) → Distinct u → Distinct v → Entry u t s x → Entry v t s y →
      Entry r.speed t s (x.bind fun x => y.map fun y => Grid.windSpeed x y)) := by
  obtain ⟨i, hi⟩ := List.getElem?_of_mem ht
  obtain ⟨j, hj⟩ := List.getElem?_of_mem hs
  unfold parseLocal at h
  cases hv : vapor d.airTemp d.humidity with
  | error e => rw [hv] at h; cases h
  | ok vp =>
    cases hw : wind d.airTemp d.wind with
    | error e => rw [hv, hw] at h; cases h
    | ok w =>
      cases hp : d.precip.reindex d.airTemp.index d.airTemp.cols with
      | error e => rw [hv, hw, hp] at h; cases h
      | ok p =>
        cases hsw : d.shortWave.reindex d.airTemp.index d.airTemp.cols with
        | error e => rw [hv, hw, hp, hsw] at h; cases h
        | ok sw =>
          rw [hv, hw, hp, hsw] at h
          have h : (Except.ok ⟨d.airTemp, vp, w.1, w.2, p, cloud clear sw⟩ : Except Err (Parsed T S)) = .ok r := h
          injection h with h
          subst h
          obtain ⟨p1, p2, p3, p4⟩ := reindex_spec hp
          refine ⟨fun a ha => ha, ?_, ?_, ?_⟩
          · intro x hd hx
            exact ⟨i, j, by simp only [p1]; exact hi, by simp only [p2]; exact hj, p3 i j t s x hi hj hd hx⟩
          · intro hn
            exact ⟨i, j, by simp only [p1]; exact hi, by simp only [p2]; exact hj, p4 i j t s hi hj hn⟩
          · intro u v x y huv hu hv' hx hy
            rw [huv] at hw
            unfold wind at hw
            simp only at hw
            cases hb : Frame.byLabel Grid.windSpeed u v with
            | error e => rw [hb] at hw; cases hw
            | ok sp =>
              rw [hb] at hw
              cases hq : Frame.byPosition (fun y x => Grid.windDirection x y) v u with
              | error e => simp only [hq] at hw; cases hw
              | ok dir =>
                simp only [hq] at hw
                cases hr1 : sp.reindex d.airTemp.index d.airTemp.cols with
                | error e => rw [hr1] at hw; cases hw
                | ok sp' =>
                  rw [hr1] at hw
                  cases hr2 : dir.reindex d.airTemp.index d.airTemp.cols with
                  | error e => simp only [hr2] at hw; cases hw
                  | ok dir' =>
                    simp only [hr2] at hw
                    injection hw with hw
                    subst hw
                    obtain ⟨q1, q2, q3, -⟩ := reindex_spec hr1
                    obtain ⟨b1, b2⟩ := byLabel_spec hb hu hv' hx hy
                    exact ⟨i, j, by simp only [q1]; exact hi, by simp only [q2]; exact hj, q3 i j t s _ hi hj b1 b2⟩

/-- Tables that are taken by position must have the same size: humidity with other numbers of times or cells than the temperature, or two
components of the wind of different size, end the run. -/
theorem C145_shape [DecidableEq T] [DecidableEq S] (clear : T → ℝ) (d : Data T S) (r : Parsed T S) (h : parseLocal clear d = .ok r) :
    (d.humidity.index.length = d.airTemp.index.length ∧ d.humidity.cols.length = d.airTemp.cols.length) ∧
    ∀ u v, d.wind = some (u, v) → u.index.length = v.index.length ∧ u.cols.length = v.cols.length := by
  unfold parseLocal at h
  cases hv : vapor d.airTemp d.humidity with
  | error e => rw [hv] at h; cases h
  | ok vp =>
    cases hw : wind d.airTemp d.wind with
    | error e => rw [hv, hw] at h; cases h
    | ok w =>
      constructor
      · unfold vapor at hv
        split at hv
        · rename_i hc; exact ⟨hc.1.symm, hc.2.symm⟩
        · cases hv
      · intro u v huv
        rw [huv] at hw
        unfold wind at hw
        simp only at hw
        cases hb : Frame.byLabel Grid.windSpeed u v with
        | error e => rw [hb] at hw; cases hw
        | ok sp =>
          rw [hb] at hw
          cases hq : Frame.byPosition (fun y x => Grid.windDirection x y) v u with
          | error e => simp only [hq] at hw; cases hw
          | ok dir =>
            unfold Frame.byPosition at hq
            split at hq
            · rename_i hc; exact ⟨hc.1.symm, hc.2.symm⟩
            · cases hq

/-- A time that the time zone does not have, or has twice, ends the run. -/
theorem C145_time [DecidableEq T'] [DecidableEq S] (loc : T → Option T') (clear : T' → ℝ) (d : Data T S) (t : T) (ht : t ∈ d.airTemp.index)
    (hl : loc t = none) : parse loc clear d = .error .timeError := by
  have hm : d.airTemp.index.mapM loc = none := by
    cases hc : d.airTemp.index.mapM loc with
    | none => rfl
    | some r =>
      obtain ⟨i, hi⟩ := List.getElem?_of_mem ht
      obtain ⟨t', e, -⟩ := (mapM_get loc _ r hc).2 i t hi
      rw [hl] at e
      cases e
  unfold parse localizeAll Frame.localize
  rw [hm]
  rfl

/-! ### The full claim -/

/-- The full claim: every value belongs to its time and cell, whatever the order of the rows and columns of the tables. -/
def C145_full : Prop :=
  ∀ (clear : Nat → ℝ) (d : Data Nat Nat) (r : Parsed Nat Nat), parseLocal clear d = .ok r →
    Distinct d.airTemp → Distinct d.humidity →
    ∀ t s a h, Entry d.airTemp t s a → Entry d.humidity t s h → Entry r.vapor t s (vaporOf a h)

/-- The same for the direction of the wind. -/
def C145_direction_full : Prop :=
  ∀ (clear : Nat → ℝ) (d : Data Nat Nat) (r : Parsed Nat Nat), parseLocal clear d = .ok r →
    ∀ u v, d.wind = some (u, v) → Distinct d.airTemp → Distinct u → Distinct v →
    ∀ t s x y, Entry u t s (some x) → Entry v t s (some y) → Entry r.direction t s (some (Grid.windDirection x y))

/-- A table with one time and two cells. -/
def two (s s' : Nat) (a b : ℝ) : Frame Nat Nat := ⟨[0], [s, s'], fun _ j => if j = 0 then some a else some b⟩

private theorem two_distinct {s s' : Nat} {a b : ℝ} (h : s ≠ s') : Distinct (two s s' a b) := by
  constructor <;> simp [two, h]

/-- The humidity has its cells in the other order: each cell gets the humidity of the other one, without an error. -/
theorem C145_fails : ¬ C145_full := by
  intro hc
  have hl : Distinct (two 1 2 0 0) := two_distinct (by norm_num)
  let d : Data Nat Nat := ⟨two 1 2 0 0, two 2 1 50 100, two 1 2 0 0, two 1 2 0 0, none⟩
  obtain ⟨vp, v1, v2, v3, v4⟩ := vapor_spec (ta := d.airTemp) (rh := d.humidity) rfl rfl (by simp [d, two]) (by simp [d, two]) (r := 50) rfl (by norm_num)
    (by intro i j; simp only [d, two]; split_ifs <;> norm_num)
  have hp : d.precip.reindex d.airTemp.index d.airTemp.cols = .ok d.precip := reindex_self d.precip
  have hr : parseLocal (fun _ => 0) d = .ok ⟨d.airTemp, vp, ⟨d.airTemp.index, d.airTemp.cols, fun _ _ => none⟩,
      ⟨d.airTemp.index, d.airTemp.cols, fun _ _ => none⟩, d.precip, cloud (fun _ => 0) d.shortWave⟩ := by
    unfold parseLocal
    have hsw : d.shortWave.reindex d.airTemp.index d.airTemp.cols = .ok d.shortWave := reindex_self d.shortWave
    simp only [v1, hp, hsw]
    rfl
  obtain ⟨i, j, e1, e2, e3⟩ := hc _ d _ hr (two_distinct (by norm_num)) (two_distinct (by norm_num)) 0 1 (some 0) (some 100)
    ⟨0, 0, rfl, rfl, rfl⟩ ⟨0, 1, rfl, rfl, rfl⟩
  simp only [v2, v3] at e1 e2
  have hi : i = 0 := by
    rcases i with _ | i
    · rfl
    · simp [d, two] at e1
  have hj : j = 0 := by
    rcases j with _ | _ | j
    · rfl
    · simp [d, two] at e2
    · simp [d, two] at e2
  subst hi hj
  have e3 : vp.val 0 0 = vaporOf (some 0) (some 100) := e3
  rw [v4 0 0 (by simp [d, two]) (by simp [d, two])] at e3
  have hpos : (0 : ℝ) < Vapor.sat (27315 / 100) := by
    unfold Vapor.sat Vapor.satWater Vapor.satIce
    split_ifs <;> positivity
  simp only [d, two, vaporOf, if_true] at e3
  norm_num at e3
  linarith

/-- The table of the northward wind has its cells in the other order: the direction is mixed from two cells, while the speed is
right. -/
theorem C145_direction_fails : ¬ C145_direction_full := by
  intro hc
  let d : Data Nat Nat := ⟨two 1 2 0 0, two 1 2 50 50, two 1 2 0 0, two 1 2 0 0, some (two 1 2 1 (-1), two 2 1 0 0)⟩
  obtain ⟨vp, v1, v2, v3, v4⟩ := vapor_spec (ta := d.airTemp) (rh := d.humidity) rfl rfl (by simp [d, two]) (by simp [d, two]) (r := 50) rfl (by norm_num)
    (by intro i j; simp only [d, two]; split_ifs <;> norm_num)
  have hp : d.precip.reindex d.airTemp.index d.airTemp.cols = .ok d.precip := reindex_self d.precip
  obtain ⟨w, hw, w1, w2, w3⟩ : ∃ w, wind d.airTemp d.wind = .ok w ∧ w.2.index = [0] ∧ w.2.cols = [1, 2] ∧ w.2.val 0 1 = some (Grid.windDirection 1 0) := by
    unfold wind
    simp only [d]
    have q1 : ∃ sp, Frame.byLabel Grid.windSpeed (two 1 2 1 (-1)) (two 2 1 0 0) = .ok sp ∧ sp.index = [0] ∧ sp.cols = [1, 2] := by
      refine ⟨⟨[0], [1, 2], _⟩, rfl, rfl, rfl⟩
    obtain ⟨sp, hsp, s1, s2⟩ := q1
    have q2 : ∃ dir, Frame.byPosition (fun y x => Grid.windDirection x y) (two 2 1 0 0) (two 1 2 1 (-1)) = .ok dir ∧ dir.index = [0] ∧
        dir.cols = [2, 1] ∧ dir.val 0 0 = some (Grid.windDirection 1 0) := by
      refine ⟨⟨[0], [2, 1], _⟩, rfl, rfl, rfl, rfl⟩
    obtain ⟨dir, hdir, d1, d2, d3⟩ := q2
    have hsp' : sp.reindex (two 1 2 0 0).index (two 1 2 0 0).cols = .ok sp := by
      have := reindex_self sp
      rwa [s1, s2] at this
    have q3 : ∃ dir', dir.reindex (two 1 2 0 0).index (two 1 2 0 0).cols = .ok dir' := by
      unfold Frame.reindex
      rw [d1, d2]
      exact ⟨_, rfl⟩
    obtain ⟨dir', hdir'⟩ := q3
    obtain ⟨r1, r2, r3, -⟩ := reindex_spec hdir'
    refine ⟨(sp, dir'), ?_, r1, r2, r3 0 1 0 2 _ rfl rfl ⟨by rw [d1]; simp, by rw [d2]; simp⟩ ⟨0, 0, by rw [d1]; rfl, by rw [d2]; rfl, d3⟩⟩
    simp only [hsp, hdir, hsp', hdir']
  have hr : parseLocal (fun _ => 0) d = .ok ⟨d.airTemp, vp, w.1, w.2, d.precip, cloud (fun _ => 0) d.shortWave⟩ := by
    unfold parseLocal
    have hsw : d.shortWave.reindex d.airTemp.index d.airTemp.cols = .ok d.shortWave := reindex_self d.shortWave
    simp only [v1, hp, hsw, hw]
    rfl
  obtain ⟨i, j, e1, e2, e3⟩ := hc _ d _ hr _ _ rfl (two_distinct (by norm_num)) (two_distinct (by norm_num)) (two_distinct (by norm_num)) 0 2 (-1) 0
    ⟨0, 1, rfl, rfl, rfl⟩ ⟨0, 0, rfl, rfl, rfl⟩
  simp only [w1, w2] at e1 e2
  have hi : i = 0 := by
    rcases i with _ | i
    · rfl
    · simp at e1
  have hj : j = 1 := by
    rcases j with _ | _ | j
    · simp at e2
    · rfl
    · simp at e2
  subst hi hj
  have e3 : w.2.val 0 1 = some (Grid.windDirection (-1) 0) := e3
  rw [w3] at e3
  have a1 : Complex.arg ⟨1, 0⟩ = 0 := Complex.arg_one
  have a2 : Complex.arg ⟨-1, 0⟩ = Real.pi := by
    have : (⟨-1, 0⟩ : ℂ) = -1 := by apply Complex.ext <;> simp
    rw [this]; exact Complex.arg_neg_one
  have hpi := Real.pi_pos
  simp only [Option.some.injEq, Grid.windDirection, a1, a2] at e3
  have e4 : Real.pi * 180 / Real.pi = 180 := by field_simp
  rw [e4] at e3
  norm_num at e3

/-! ### The hypotheses can be met -/

/-- Two times and two cells with wind. -/
example : ∃ (d : Data Nat Nat) (idx : List Nat) (cols : List Nat) (u v : Frame Nat Nat), Same d idx cols ∧ d.wind = some (u, v) ∧
    (∀ t ∈ idx, ((fun t => some (t + 7)) t : Option Nat).isSome = true) ∧ idx.length = 2 ∧ cols.length = 2 ∧
    d.humidity.val 0 0 = some 40 ∧ (∀ i j, d.airTemp.val i j ≠ some (-(27315 / 100))) ∧ Distinct d.precip ∧ Distinct u := by
  let f : ℝ → Frame Nat Nat := fun a => ⟨[0, 1], [5, 6], fun i j => some (a + i + j)⟩
  refine ⟨⟨f 0, f 40, f 0, f 500, some (f 1, f 2)⟩, [0, 1], [5, 6], f 1, f 2, ⟨⟨rfl, rfl⟩, ⟨rfl, rfl⟩, ⟨rfl, rfl⟩, ⟨rfl, rfl⟩, ?_⟩, rfl, ?_, rfl, rfl, ?_, ?_, ?_, ?_⟩
  · intro u v h
    simp only [Option.some.injEq, Prod.mk.injEq] at h
    obtain ⟨rfl, rfl⟩ := h
    exact ⟨⟨rfl, rfl⟩, ⟨rfl, rfl⟩⟩
  · intro t _; rfl
  · simp [f]
  · intro i j h
    simp only [f, Option.some.injEq] at h
    have h1 : (0 : ℝ) ≤ i := Nat.cast_nonneg i
    have h2 : (0 : ℝ) ≤ j := Nat.cast_nonneg j
    linarith
  · constructor <;> simp [f]
  · constructor <;> simp [f]

end Verif.Hrrr
