import Verif.ZoneLemmas
import Verif.AlbedoProps

/-!
C123: a run in a local time zone has one record per time step, one instant per row of the input, and the dates of the configuration
are those of the clock.
-/

namespace Verif.Zone

open Verif.Calendar Verif.Output

/-- The clock shows `n` exactly once. -/
def Once (z : Tz) (n : Int) : Prop := ∃ t, z.wall t = n ∧ ∀ t', z.wall t' = n → t' = t

/-- C123, localising: a naive time gives the instant at which the clock shows it if there is exactly one; an error says that there is none
or more than one. -/
theorem C123_localize (z : Tz) (n : Int) :
    (∀ t, z.localize n = .ok t ↔ z.wall t = n ∧ ∀ t', z.wall t' = n → t' = t) ∧
    (z.localize n = .error .nonexistent ↔ ∀ t, z.wall t ≠ n) ∧
    (z.localize n = .error .ambiguous ↔ ∃ t t', t ≠ t' ∧ z.wall t = n ∧ z.wall t' = n) ∧
    z.localize n ≠ .error .unknownZone ∧ z.localize n ≠ .error .zeroStep := by
  have hm := mem_instants z n
  have hd := nodup_instants z n
  unfold Tz.localize
  match h : z.instants n with
  | [] =>
    rw [h] at hm
    have hn : ∀ t, z.wall t ≠ n := fun t ht => by have := (hm t).2 ht; simp at this
    refine ⟨fun t => ⟨fun e => (by cases e), fun e => absurd e.1 (hn t)⟩, ⟨fun _ => hn, fun _ => rfl⟩,
      ⟨fun e => (by cases e), fun ⟨t, _, _, e, _⟩ => absurd e (hn t)⟩, by simp, by simp⟩
  | [a] =>
    rw [h] at hm
    have ha : ∀ t, z.wall t = n ↔ t = a := fun t => by rw [← hm t]; simp
    refine ⟨fun t => ⟨fun e => ?_, fun e => ?_⟩, ⟨fun e => (by cases e), fun e => absurd ((ha a).2 rfl) (e a)⟩,
      ⟨fun e => (by cases e), fun ⟨t, t', ne, e1, e2⟩ => absurd (((ha t).1 e1).trans ((ha t').1 e2).symm) ne⟩, by simp, by simp⟩
    · cases e
      exact ⟨(ha a).2 rfl, fun t' e' => (ha t').1 e'⟩
    · rw [(ha t).1 e.1]
  | a :: b :: l =>
    rw [h] at hm hd
    have ha := (hm a).1 (by simp)
    have hb := (hm b).1 (by simp)
    have ne : a ≠ b := by
      rintro rfl
      simp at hd
    refine ⟨fun t => ⟨fun e => (by cases e), fun e => absurd ((e.2 a ha).trans (e.2 b hb).symm) ne⟩,
      ⟨fun e => (by cases e), fun e => absurd ha (e a)⟩, ⟨fun _ => ⟨a, b, ne, ha, hb⟩, fun _ => rfl⟩, by simp, by simp⟩

theorem localize_ok {z : Tz} {n t : Int} (h : z.localize n = .ok t) : z.wall t = n ∧ ∀ t', z.wall t' = n → t' = t :=
  ((C123_localize z n).1 t).1 h

/-- C123, rows of the input: a table can be read exactly if every row has a time that the clock shows once, and then an instant has a row
exactly if the clock at that instant is in the file. -/
theorem C123_rows (z : Tz) (rows : List Int) :
    ((∃ l, index z rows = .ok l) ↔ ∀ n ∈ rows, Once z n) ∧
    ∀ l, index z rows = .ok l → l.map z.wall = rows ∧ ∀ t, t ∈ l ↔ z.wall t ∈ rows := by
  refine ⟨⟨?_, ?_⟩, ?_⟩
  · rintro ⟨l, h⟩ n hn
    have f := index_ok z rows l h
    obtain ⟨i, hi, rfl⟩ := List.getElem_of_mem hn
    have hi' : i < l.length := by rw [← f.length_eq]; exact hi
    exact ⟨l[i], localize_ok ((List.forall₂_iff_get.1 f).2 i hi hi')⟩
  · intro h
    exact index_of z rows fun n hn => (h n hn).imp fun t ht => ((C123_localize z n).1 t).2 ht
  · intro l h
    have f := index_ok z rows l h
    have e : l.map z.wall = rows := by
      clear h
      induction f with
      | nil => rfl
      | cons a _ ih => rw [List.map_cons, ih, (localize_ok a).1]
    refine ⟨e, fun t => ⟨fun ht => e ▸ List.mem_map_of_mem ht, fun ht => ?_⟩⟩
    obtain ⟨i, hi, e2⟩ := List.getElem_of_mem ht
    have hi' : i < l.length := by rw [← f.length_eq]; exact hi
    have := (localize_ok ((List.forall₂_iff_get.1 f).2 i hi hi')).2 t e2.symm
    rw [this]
    exact List.getElem_mem _

/-- C123, the steps: instants from the start to the end, `step` minutes apart whatever the clock does in between. -/
theorem C123_steps (z : Tz) (start stop : Int) (step : Nat) (l : List Int) (h : steps z start stop step = .ok l) :
    ∃ a b, z.wall a = start ∧ z.wall b = stop ∧ l.Pairwise (· < ·) ∧
      ∀ t, t ∈ l ↔ ∃ k : Nat, t = a + k * (step * 60) ∧ t ≤ b := by
  obtain ⟨a, b, h1, h2, h3⟩ := steps_ok h
  refine ⟨a, b, (localize_ok h1).1, (localize_ok h2).1, (C19_regular _ _ _ _ h3).2, fun t => ?_⟩
  have := C19_complete _ _ _ _ h3 t
  push_cast at this
  exact this

/-- The record of the clock of a step holds the image of the last step with that clock. -/
theorem C123_record (R : Type) (z : Tz) (d : Int → R) (ts : List Int) (hs : ts.Pairwise (· < ·)) (t : Int) (ht : t ∈ ts) :
    ∃ u ∈ ts, z.wall u = z.wall t ∧ (∀ v ∈ ts, z.wall v = z.wall t → v ≤ u) ∧ recordOf (file z d ts) (z.wall t) = some (d u) := by
  have key : ∃ u ∈ ts, z.wall u = z.wall t ∧ (∀ v ∈ ts, z.wall v = z.wall t → v ≤ u) ∧
      newest (z.wall t) (ts.map fun t => (z.wall t, d t)) = some (d u) := by
    unfold newest
    rw [← List.map_reverse, List.find?_map]
    cases h : ts.reverse.find? ((fun w : Int × R => decide (w.1 = z.wall t)) ∘ fun t => (z.wall t, d t)) with
    | none =>
      rw [List.find?_eq_none] at h
      have := h t (by simpa using ht)
      simp at this
    | some u =>
      obtain ⟨hw, as, bs, e, hf⟩ := List.find?_eq_some_iff_append.1 h
      have hr : ts.reverse.Pairwise (fun a b => b < a) := List.pairwise_reverse.2 hs
      rw [e] at hr
      have hu : u ∈ ts.reverse := by rw [e]; simp
      refine ⟨u, by simpa using hu, by simpa using hw, ?_, rfl⟩
      intro v hv hvw
      have hv' : v ∈ ts.reverse := by simpa using hv
      rw [e] at hv'
      rcases List.mem_append.1 hv' with h1 | h1
      · have := hf v h1
        simp [hvw] at this
      · rcases List.mem_cons.1 h1 with h2 | h2
        · exact le_of_eq h2
        · exact ((List.pairwise_cons.1 (List.pairwise_append.1 hr).2.1).1 v h2).le
  obtain ⟨u, h1, h2, h3, h4⟩ := key
  refine ⟨u, h1, h2, h3, ?_⟩
  unfold file
  rw [(C13_latest_record_partial (fun x => x) [] _ (fun _ _ => rfl) (by simp)).2, h4]
  rfl

/-- The number of records is the number of different times of the clock. -/
theorem length_file {R : Type} (z : Tz) (d : Int → R) (ts : List Int) : (file z d ts).length = (ts.map z.wall).toFinset.card := by
  have hn := (C13_latest_record_partial (fun x => x) ([] : List (Int × R)) (ts.map fun t => (z.wall t, d t)) (fun _ _ => rfl) (by simp)).1
  unfold file
  rw [← List.length_map (f := Prod.fst), ← List.toFinset_card_of_nodup hn]
  congr 1
  ext x
  simp only [List.mem_toFinset]
  rw [writes_eq (fun x => x) [] _ (fun _ _ => rfl)]
  have := keys_foldl ([] : List (Int × R)) (ts.map fun t => (z.wall t, d t))
  simp only [Queue.Dict.keys] at this
  rw [this, mem_foldl_ins]
  simp

/-- The claim about the output: every step has its own record, with its image. -/
def C123_full : Prop :=
  ∀ (R : Type) (z : Tz) (d : Int → R) (start stop : Int) (step : Nat) (ts : List Int), steps z start stop step = .ok ts →
    (file z d ts).length = ts.length ∧ ∀ t ∈ ts, recordOf (file z d ts) (z.wall t) = some (d t)

/-- C123 as long as the clock is not put back during the run. -/
theorem C123_records_partial (R : Type) (z : Tz) (d : Int → R) (start stop : Int) (step : Nat) (ts : List Int)
    (h : steps z start stop step = .ok ts) (hz : ∀ t ∈ ts, ∀ u ∈ ts, t ≤ u → z.offset t ≤ z.offset u) :
    (file z d ts).length = ts.length ∧ ∀ t ∈ ts, recordOf (file z d ts) (z.wall t) = some (d t) := by
  obtain ⟨a, b, _, _, hs, _⟩ := C123_steps z start stop step ts h
  have inj : ∀ t ∈ ts, ∀ u ∈ ts, z.wall t = z.wall u → t = u := by
    intro t ht u hu e
    unfold Tz.wall at e
    rcases le_total t u with h1 | h1
    · have := hz t ht u hu h1; omega
    · have := hz u hu t ht h1; omega
  constructor
  · rw [length_file, List.toFinset_card_of_nodup, List.length_map]
    exact List.Nodup.map_on (fun t ht u hu e => inj t ht u hu e) (hs.imp ne_of_lt)
  · intro t ht
    obtain ⟨u, h1, h2, _, h4⟩ := C123_record R z d ts hs t ht
    rw [h4, inj u h1 t ht h2]

/-- C123 does not hold in the autumn: if the clock is put back by `gap` seconds at the instant `c`, and the step divides the gap, then every
step in the `gap` seconds before the change loses its record to a later step, and the file has fewer records than the run has steps. -/
theorem C123_autumn_fails (R : Type) (z : Tz) (d : Int → R) (start stop : Int) (step k : Nat) (ts : List Int)
    (h : steps z start stop step = .ok ts) (c o : Int) (hk : 0 < k) (hstep : 0 < step)
    (before : ∀ t, c - k * (step * 60) ≤ t → t < c → z.offset t = o)
    (after : ∀ t, c ≤ t → t < c + k * (step * 60) → z.offset t = o - k * (step * 60))
    (t : Int) (ht : t ∈ ts) (t1 : c - k * (step * 60) ≤ t) (t2 : t < c) (last : ∃ v ∈ ts, t + k * (step * 60) ≤ v) :
    (∃ u ∈ ts, t < u ∧ recordOf (file z d ts) (z.wall t) = some (d u)) ∧ (file z d ts).length < ts.length := by
  obtain ⟨a, b, _, _, hs, hm⟩ := C123_steps z start stop step ts h
  obtain ⟨v, hv, hvt⟩ := last
  have hp : (0 : Int) < k * (step * 60) := by positivity
  have hu : t + k * (step * 60) ∈ ts := by
    obtain ⟨j, e, _⟩ := (hm t).1 ht
    obtain ⟨_, _, e3⟩ := (hm v).1 hv
    exact (hm _).2 ⟨j + k, by rw [e]; push_cast; ring, by omega⟩
  have hw : z.wall (t + k * (step * 60)) = z.wall t := by
    unfold Tz.wall
    rw [before t t1 t2, after _ (by omega) (by omega)]
    ring
  constructor
  · obtain ⟨u, h1, h2, h3, h4⟩ := C123_record R z d ts hs t ht
    have := h3 _ hu hw
    exact ⟨u, h1, by omega, h4⟩
  · rw [length_file]
    refine lt_of_le_of_ne ((List.toFinset_card_le _).trans (by simp)) fun e => ?_
    have nd : (ts.map z.wall).Nodup :=
      Multiset.coe_nodup.1 ((Multiset.toFinset_card_eq_card_iff_nodup (m := ((ts.map z.wall : List Int) : Multiset Int))).1 (by simpa using e))
    have := List.inj_on_of_nodup_map nd hu ht hw
    omega

/-! ### The dates of the decay -/

/-- The instants of the two dates of the decay as the clock shows them. -/
def Dates (z : Tz) (start stop a b : Int) : Prop := z.localize start = .ok a ∧ z.localize stop = .ok b

/-- C123, the dates of the decay are those of the clock if the offset at these dates is the first one of the zone, as in a zone without
changes. -/
theorem C123_decay_partial (z : Tz) (start stop a b : Int) (h : Dates z start stop a b) :
    (z.replace start = a ↔ z.offset a = z.first) ∧ (z.replace stop = b ↔ z.offset b = z.first) := by
  have h1 := (localize_ok h.1).1
  have h2 := (localize_ok h.2).1
  unfold Tz.wall at h1 h2
  unfold Tz.replace
  constructor <;> constructor <;> intro <;> omega

/-- C123, else they are not: with the same offset at both dates the albedo of every step is the one that belongs to the step `offset - first`
seconds earlier (instants in microseconds, as in `decayAlbPower`). -/
theorem C123_decay_shift_fails (ι : Type) (z : Tz) (start stop a b : Int) (h : Dates z start stop a b) (ho : z.offset a = z.offset b)
    (hf : z.offset a ≠ z.first) (veg : Albedo.Dict) (vt : ι → Int) (pwr : ℝ) (v ir : ι → ℝ) :
    z.replace start ≠ a ∧ z.replace stop ≠ b ∧
    ∀ t, Albedo.decayAlbPower veg vt (z.replace start * 1000000) (z.replace stop * 1000000) t pwr v ir =
      Albedo.decayAlbPower veg vt (a * 1000000) (b * 1000000) (t - (z.offset a - z.first) * 1000000) pwr v ir := by
  have h1 := (localize_ok h.1).1
  have h2 := (localize_ok h.2).1
  unfold Tz.wall at h1 h2
  unfold Tz.replace
  refine ⟨by omega, by omega, fun t => ?_⟩
  unfold Albedo.decayAlbPower Albedo.albDec
  rw [show t - (start - z.first) * 1000000 = t - (z.offset a - z.first) * 1000000 - a * 1000000 by rw [← h1]; ring,
    show (stop - z.first) * 1000000 - (start - z.first) * 1000000 = b * 1000000 - a * 1000000 by rw [← h1, ← h2, ho]; ring]

/-! ### The water day -/

/-- C123, the water day of a step is that of its clock if the abbreviation of its zone is a zone with the same offset. -/
theorem C123_water_day_partial (db : String → Option Int) (w : DT) (o : Int) (nm : String) (h : db nm = some o) :
    waterDayAt db w o nm = .ok (waterDay w) := by
  unfold waterDayAt waterDay
  rw [h]
  simp only [show w.instant - o < (DT.mk w.year 10 1 0).instant - o ↔ w.instant < (DT.mk w.year 10 1 0).instant by omega]
  congr 3 <;> rw [sub_sub_sub_cancel_right]

/-- C123, with any other offset of the abbreviation it is off by the difference, as long as the year is the same. -/
theorem C123_water_day_shift_fails (db : String → Option Int) (w : DT) (o p : Int) (nm : String) (h : db nm = some p) (hp : p ≠ o) :
    ∃ r, waterDayAt db w o nm = .ok r ∧ r ≠ waterDay w ∧
      (r.2 = (waterDay w).2 → r.1 = (waterDay w).1 + ((p - o : Int) : ℚ) / 86400) := by
  have hd : ∀ d : Int, ((d / 86400 : Int) : ℚ) + ((d % 86400 : Int) : ℚ) / 86400 = (d : ℚ) / 86400 := by
    intro d
    have h1 := Int.mul_ediv_add_emod d 86400
    have h2 : (86400 : ℚ) * ((d / 86400 : Int) : ℚ) + ((d % 86400 : Int) : ℚ) = d := by exact_mod_cast h1
    linarith
  unfold waterDayAt
  rw [h]
  refine ⟨_, rfl, ?_⟩
  have key : ∀ r : ℚ × Nat, r.1 = ((w.instant - o - ((DT.mk (r.2 - 1) 10 1 0).instant - p) : Int) : ℚ) / 86400 →
      (r.2 = (waterDay w).2 → r.1 = (waterDay w).1 + ((p - o : Int) : ℚ) / 86400) := by
    intro r e1 e2
    rw [e1, waterDay_fst, e2]
    push_cast
    ring
  have k := key (_, if w.instant - o < (DT.mk w.year 10 1 0).instant - p then w.year else w.year + 1)
    (hd (w.instant - o - ((DT.mk ((if w.instant - o < (DT.mk w.year 10 1 0).instant - p then w.year else w.year + 1) - 1) 10 1 0).instant - p)))
  refine ⟨fun e => ?_, k⟩
  have e2 := k (by rw [← e])
  rw [← e] at e2
  have : ((p - o : Int) : ℚ) / 86400 = 0 := by linarith
  have h0 : ((p - o : Int) : ℚ) = 0 := by
    rcases div_eq_zero_iff.1 this with h | h
    · exact h
    · norm_num at h
  have : p - o = 0 := by exact_mod_cast h0
  omega

/-- C123, the water days of a run, one per step, are those of the clock if all abbreviations are zones with the offset of the step. -/
theorem C123_water_days_partial (db : String → Option Int) (z : Tz) (date : Int → DT) (ts : List Int)
    (h : ∀ t ∈ ts, db (z.name t) = some (z.offset t)) :
    waterDays db z date ts = .ok (ts.map fun t => waterDay (date (t + z.offset t))) := by
  induction ts with
  | nil => rfl
  | cons t ts ih =>
    rw [waterDays, C123_water_day_partial db _ _ _ (h t (by simp)), ih fun u hu => h u (by simp [hu])]
    rfl

/-- C123, a run ends normally exactly if the abbreviation at every step is the name of a zone. -/
theorem C123_names (db : String → Option Int) (z : Tz) (date : Int → DT) (ts : List Int) :
    (∃ l, waterDays db z date ts = .ok l) ↔ ∀ t ∈ ts, db (z.name t) ≠ none := by
  induction ts with
  | nil => simp [waterDays]
  | cons t ts ih =>
    rw [List.forall_mem_cons, ← ih, ← waterDayAt_ok (w := date (z.wall t)) (o := z.offset t)]
    rw [waterDays]
    cases waterDayAt db (date (z.wall t)) (z.offset t) (z.name t) with
    | error e => simp
    | ok r =>
      cases waterDays db z date ts with
      | error e => simp
      | ok l => simp

/-- C123 does not hold: a run with a step at which the abbreviation is no zone, such as PDT, ends with an error. -/
theorem C123_names_fails (db : String → Option Int) (z : Tz) (date : Int → DT) (ts : List Int) (t : Int) (ht : t ∈ ts)
    (h : db (z.name t) = none) : waterDays db z date ts = .error .unknownZone := by
  induction ts with
  | nil => cases ht
  | cons u ts ih =>
    unfold waterDays
    cases hu : db (z.name u) with
    | none => simp [waterDayAt, hu]
    | some p =>
      obtain ⟨r, hr⟩ := (waterDayAt_ok (db := db) (w := date (z.wall u)) (o := z.offset u) (nm := z.name u)).2 (by simp [hu])
      rw [hr]
      have : t ∈ ts := by
        rcases List.mem_cons.1 ht with e | e
        · rw [e, hu] at h; cases h
        · exact e
      simp only [ih this]

/-! ### Los Angeles in 2019 (seconds since 1970) -/

/-- The local mean time in whole minutes, Pacific standard time, and the two changes of 2019. -/
def losAngeles : Tz := ⟨-28380, "LMT", [⟨-2717640000, -28800, "PST"⟩, ⟨1552212000, -25200, "PDT"⟩, ⟨1572771600, -28800, "PST"⟩]⟩

/-- From midnight to six in the morning of 3 November 2019: eight hourly steps. -/
def november : List Int := [1572764400, 1572768000, 1572771600, 1572775200, 1572778800, 1572782400, 1572786000, 1572789600]

theorem november_steps : steps losAngeles 1572739200 1572760800 60 = .ok november := by decide +kernel

theorem la_before (t : Int) (h1 : 1552212000 ≤ t) (h2 : t < 1572771600) : losAngeles.offset t = -25200 ∧ losAngeles.name t = "PDT" := by
  have a : (-2717640000 : Int) ≤ t := by omega
  have b : ¬ (1572771600 : Int) ≤ t := by omega
  constructor <;> simp [Tz.offset, Tz.name, Tz.last, losAngeles, a, b, h1]

theorem la_after (t : Int) (h : 1572771600 ≤ t) : losAngeles.offset t = -28800 ∧ losAngeles.name t = "PST" := by
  have a : (-2717640000 : Int) ≤ t := by omega
  have b : (1552212000 : Int) ≤ t := by omega
  constructor <;> simp [Tz.offset, Tz.name, Tz.last, losAngeles, a, b, h]

/-- One o'clock in summer time is overwritten. -/
theorem C123_fails : ¬ C123_full := by
  intro h
  have h1 := (h Int losAngeles (fun t => t) _ _ _ _ november_steps).1
  have h2 := (C123_autumn_fails Int losAngeles (fun t => t) _ _ 60 1 november november_steps 1572771600 (-25200) (by norm_num) (by norm_num)
    (fun t a b => (la_before t (by omega) b).1) (fun t a _ => by rw [(la_after t a).1]; norm_num) 1572768000 (by decide) (by norm_num)
    (by norm_num) ⟨1572789600, by decide, by norm_num⟩).2
  omega

/-- A day in March with the clock put forward: 23 steps, all with a record. -/
example : ∃ ts, steps losAngeles 1552176000 1552258800 60 = .ok ts ∧ ts.length = 23 ∧
    ∀ t ∈ ts, recordOf (file losAngeles (fun t => t) ts) (losAngeles.wall t) = some t := by
  have e : ∃ ts, steps losAngeles 1552176000 1552258800 60 = .ok ts ∧ ts.length = 23 ∧
      ∀ t ∈ ts, ∀ u ∈ ts, t ≤ u → losAngeles.offset t ≤ losAngeles.offset u := by
    refine ⟨(List.range 23).map fun i => 1552204800 + (i : Int) * 3600, by decide +kernel, by decide +kernel, by decide +kernel⟩
  obtain ⟨ts, h1, h2, h3⟩ := e
  exact ⟨ts, h1, h2, (C123_records_partial Int losAngeles (fun t => t) _ _ _ _ h1 h3).2⟩

/-- A file of stations with the row 01:30 of 3 November or 02:30 of 10 March cannot be read. -/
example : losAngeles.localize 1572744600 = .error .ambiguous ∧ losAngeles.localize 1552185000 = .error .nonexistent ∧
    index losAngeles [1572739200, 1572744600] = .error .ambiguous ∧ index losAngeles [1572739200, 1572760800] = .ok [1572764400, 1572789600] := by
  decide +kernel

/-- 1 December to 31 December: the decay begins seven minutes early. -/
example : Dates losAngeles 1575158400 1577750400 1575187200 1577779200 ∧ losAngeles.offset 1575187200 = losAngeles.offset 1577779200 ∧
    losAngeles.offset 1575187200 ≠ losAngeles.first ∧ losAngeles.replace 1575158400 = 1575187200 - 420 := by
  unfold Dates
  decide +kernel

/-- The database of pytz for four abbreviations. -/
def database (s : String) : Option Int :=
  if s = "UTC" then some 0 else if s = "MST" then some (-25200) else if s = "EST" then some (-18000) else if s = "HST" then some (-36000) else none

example (date : Int → DT) : waterDays database losAngeles date november = .error .unknownZone :=
  C123_names_fails database losAngeles date november 1572764400 (by decide) (by decide +kernel)

/-- Two steps in the zone MST. -/
example (date : Int → DT) : waterDays database ⟨-25200, "MST", []⟩ date [0, 3600] = .ok [waterDay (date (-25200)), waterDay (date (-21600))] :=
  C123_water_days_partial database ⟨-25200, "MST", []⟩ date [0, 3600] (by decide +kernel)

example (w : DT) : waterDayAt database w (-25200) "MST" = .ok (waterDay w) := C123_water_day_partial database w _ _ (by decide +kernel)

end Verif.Zone
