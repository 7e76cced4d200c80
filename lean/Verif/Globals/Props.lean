import Verif.Globals.Model
import Verif.Reader.Props
import Verif.Reader.DatasetProps
import Verif.Notebook.Text

/-! # Global attributes of the products: properties C94 and C95 -/
namespace Dedop.Globals

/-! ## Specification -/

/-- The value an attribute of a product must have, given the attribute of the input. -/
def copyOf (v : Option Attr) : Attr := v.getD (.text "Not available".toList)

/-- The product has these attributes from the input file, and its own name. -/
structure Describes (file : Attrs) (names : List String) (product : Name) (c : Ctx) (o : Out) : Prop where
  copied : ∀ n ∈ names, o.attrs.get? n = some (copyOf (file.get? n))
  product : o.attrs.get? "product_name" = some (.text product)
  axis : o.attrs.get? "semi_major_ellipsoid_axis" = some (.other c.semiMajor)
  flattening : o.attrs.get? "ellipsoid_flattening" = some (.other c.flattening)
  created : o.attrs.get? "creation_time" = some (.text c.created)
  first : ∃ t, c.first = .ok t ∧ o.attrs.get? "first_meas_time" = some (.text t)
  last : ∃ t, c.last = .ok t ∧ o.attrs.get? "last_meas_time" = some (.text t)

/-- The attributes that are the same in the input and the products. -/
def sharedNames : List String :=
  ["mission_name", "altimeter_sensor_name", "gnss_sensor_name", "doris_sensor_name", "references",
   "acq_station_name", "xref_altimeter_level0", "xref_navatt_level0", "xref_altimeter_orbit",
   "xref_doris_uso", "xref_altimeter_ltm_lrm_cal1", "xref_altimeter_ltm_sar_cal1",
   "xref_altimeter_ltm_ku_cal2", "xref_altimeter_ltm_c_cal2", "xref_altimeter_characterisation",
   "xref_time_correlation", "history"]

/-! ## Lemmas -/

theorem get?_writeGlobals_not (kvs : List (String × Option Attr)) (o : Out) (n : String)
    (h : n ∉ kvs.map (·.1)) : (writeGlobals o kvs).attrs.get? n = o.attrs.get? n := by
  unfold writeGlobals
  induction kvs generalizing o with
  | nil => rfl
  | cons a t ih =>
    simp only [List.map_cons, List.mem_cons, not_or] at h
    rw [List.foldl_cons, ih _ h.2, writeGlobal, Dict.get?_set, if_neg h.1]

theorem get?_writeGlobals (kvs : List (String × Option Attr)) (o : Out) (hn : (kvs.map (·.1)).Nodup)
    (n : String) (v : Option Attr) (h : (n, v) ∈ kvs) :
    (writeGlobals o kvs).attrs.get? n = some (copyOf v) := by
  induction kvs generalizing o with
  | nil => cases h
  | cons a t ih =>
    simp only [List.map_cons, List.nodup_cons] at hn
    rcases List.mem_cons.1 h with h | h
    · subst h
      show (writeGlobals (writeGlobal o (n, v)) t).attrs.get? n = _
      rw [get?_writeGlobals_not _ _ _ hn.1, writeGlobal, Dict.get?_set, if_pos rfl]; rfl
    · exact ih _ hn.2 h

theorem writeGlobals_closed (o : Out) (kvs : List (String × Option Attr)) :
    (writeGlobals o kvs).closed = o.closed := by
  unfold writeGlobals
  induction kvs generalizing o with
  | nil => rfl
  | cons a t ih => rw [List.foldl_cons, ih]; rfl

theorem keys_nodup (title : String) (platform : Bool) (g : String → Option Attr) (c : Ctx)
    (p first last : Name) :
    ((heading title platform g c ++ ending p first last g c).map (·.1)).Nodup := by
  have : (heading title platform g c ++ ending p first last g c).map (·.1) =
      ["title"] ++ (["mission_name", "altimeter_sensor_name", "gnss_sensor_name", "doris_sensor_name",
        "references", "acq_station_name", "xref_altimeter_level0", "xref_navatt_level0",
        "xref_altimeter_orbit", "xref_doris_uso", "xref_altimeter_ltm_lrm_cal1",
        "xref_altimeter_ltm_sar_cal1", "xref_altimeter_ltm_ku_cal2", "xref_altimeter_ltm_c_cal2",
        "xref_altimeter_characterisation"] ++ (if platform then ["xref_platform"] else []) ++
        ["xref_time_correlation"]) ++ ["semi_major_ellipsoid_axis", "ellipsoid_flattening",
        "netcdf_version", "product_name", "institution", "source", "history", "contact",
        "creation_time", "first_meas_time", "last_meas_time"] := by
    cases platform <;> rfl
  rw [this]
  cases platform <;> decide +kernel

theorem describes_of (file : Attrs) (c : Ctx) (o : Out) (title : String) (platform : Bool)
    (product first last : Name) (h1 : c.first = .ok first) (h2 : c.last = .ok last)
    (g : String → Option Attr) (hg : g = fun n => if n ∈ slots then file.get? n else none)
    (b : Bool) :
    Describes file (if platform then "xref_platform" :: sharedNames else sharedNames) product c
      { writeGlobals o (heading title platform g c ++ ending product first last g c) with closed := b } := by
  have hk := keys_nodup title platform g c product first last
  have get := fun n v h => get?_writeGlobals _ o hk n v h
  have hhist : ("history", g "history") ∈ ending product first last g c := by simp [ending]
  refine ⟨?_, ?_, ?_, ?_, ?_, ⟨first, h1, ?_⟩, ⟨last, h2, ?_⟩⟩
  · intro n hn
    have hs : n ∈ slots := by
      revert n
      cases platform <;> decide +kernel
    have hv : g n = file.get? n := by rw [hg]; simp only [if_pos hs]
    rw [← hv]
    apply get
    rw [List.mem_append]
    by_cases hh : n = "history"
    · subst hh; exact .inr hhist
    · left
      unfold heading
      rw [List.mem_append, List.mem_append]
      left; right
      refine List.mem_map.2 ⟨n, ?_, rfl⟩
      have hall : ∀ n ∈ (if platform then "xref_platform" :: sharedNames else sharedNames),
          n ≠ "history" → n ∈ (["mission_name", "altimeter_sensor_name", "gnss_sensor_name",
            "doris_sensor_name", "references", "acq_station_name", "xref_altimeter_level0",
            "xref_navatt_level0", "xref_altimeter_orbit", "xref_doris_uso",
            "xref_altimeter_ltm_lrm_cal1", "xref_altimeter_ltm_sar_cal1",
            "xref_altimeter_ltm_ku_cal2", "xref_altimeter_ltm_c_cal2",
            "xref_altimeter_characterisation"] ++ (if platform then ["xref_platform"] else []) ++
            ["xref_time_correlation"]) := by
        cases platform <;> decide +kernel
      exact hall n hn hh
  · exact get "product_name" (some (.text product)) (List.mem_append.2 (.inr (.head _)))
  · exact get "semi_major_ellipsoid_axis" (some (.other c.semiMajor))
      (List.mem_append.2 (.inl (List.mem_append.2 (.inr (.head _)))))
  · exact get "ellipsoid_flattening" (some (.other c.flattening))
      (List.mem_append.2 (.inl (List.mem_append.2 (.inr (.tail _ (.head _))))))
  · exact get "creation_time" (some (.text c.created))
      (List.mem_append.2 (.inr (.tail _ (.tail _ (.tail _ (.tail _ (.tail _ (.head _))))))))
  · exact get "first_meas_time" (some (.text first))
      (List.mem_append.2 (.inr (.tail _ (.tail _ (.tail _ (.tail _ (.tail _ (.tail _ (.head _)))))))))
  · exact get "last_meas_time" (some (.text last)) (List.mem_append.2
      (.inr (.tail _ (.tail _ (.tail _ (.tail _ (.tail _ (.tail _ (.tail _ (.head _))))))))))

/-! ## C94 -/

/-- **C94 (`_partial`)**, for an input with a product name (a text): if the times can be written, both
products end closed and described by the attributes of the input, with the same times, and each with the
product name of its level.  Missing: inputs without a product name (`finish_violated`), and the attribute
`xref_platform` of the L1B product (`platform_violated`). -/
theorem attributes_copied_partial (file : Attrs) (c : Ctx) (l1b : Out) (l1bs : Option Out) (name : Name)
    (hname : file.get? "product_name" = some (.text name)) (hself : file.get? "self" = none)
    (first last : Name) (h1 : c.first = .ok first) (h2 : c.last = .ok last) :
    ∃ o, ∃ os : Option Out, finish file c l1b l1bs = (.ok (), o, os) ∧ o.closed = true ∧
      Describes file sharedNames (Notebook.replace ['_', 'A', '_', '_'] ['_', '_', '_', '_'] name) c o ∧
      os.isSome = l1bs.isSome ∧
      ∀ o' ∈ os, o'.closed = true ∧ Describes file ("xref_platform" :: sharedNames)
        (Notebook.replace ['_', 'A', '_', '_'] ['_', 'B', 'S', '_'] name) c o' := by
  have hg : readGlobals file = .ok (fun n => if n ∈ slots then file.get? n else none) := by
    unfold readGlobals; rw [hself]; rfl
  have hp : (fun n => if n ∈ slots then file.get? n else none) "product_name" = some (.text name) := by
    show (if "product_name" ∈ slots then file.get? "product_name" else none) = _
    rw [if_pos (by decide +kernel), hname]
  generalize hgg : (fun n => if n ∈ slots then file.get? n else none) = g at hg hp
  unfold finish
  simp only [hg, h1, h2, l1bProductName, l1bsProductName, hp, productName]
  have d1 := describes_of file c l1b "DeDop SRAL Level 1 Measurement" false
    (Notebook.replace ['_', 'A', '_', '_'] ['_', '_', '_', '_'] name) first last h1 h2 g hgg.symm true
  cases l1bs with
  | none => exact ⟨_, none, rfl, rfl, d1, rfl, by simp⟩
  | some o =>
    have d2 := describes_of file c o "DeDop SRAL Level 1BS Measurement" true
      (Notebook.replace ['_', 'A', '_', '_'] ['_', 'B', 'S', '_'] name) first last h1 h2 g hgg.symm true
    refine ⟨_, some _, rfl, rfl, d1, Eq.refl true, fun o' ho' => ?_⟩
    rw [Option.mem_some_iff] at ho'
    rw [← ho']
    exact ⟨rfl, d2⟩

/-- **C94 is violated** by every input whose product name is missing or not a text: at the end of the run,
after everything has been computed, the call fails; both products have no attributes and are not closed. -/
theorem finish_violated (file : Attrs) (c : Ctx) (l1b : Out) (l1bs : Option Out)
    (hname : ∀ s, file.get? "product_name" ≠ some (.text s)) :
    ∃ e, finish file c l1b l1bs = (.error e, l1b, l1bs) := by
  unfold finish readGlobals
  split
  · exact ⟨_, rfl⟩
  · rename_i g hg
    split at hg
    · cases hg
    · injection hg with hg
      split
      · exact ⟨_, rfl⟩
      · split
        · exact ⟨_, rfl⟩
        · have hp : g "product_name" = file.get? "product_name" := by
            rw [← hg]; exact if_pos (by decide +kernel)
          have : l1bProductName g = .error attributeError := by
            unfold l1bProductName productName
            rw [hp]
            split
            · rename_i s hs; exact absurd hs (hname s)
            · rfl
          rw [this]
          exact ⟨_, rfl⟩

/-- **C94 is violated** by the L1B product, which never gets the attribute `xref_platform`. -/
theorem platform_violated (file : Attrs) (c : Ctx) (l1b : Out) (l1bs : Option Out)
    (h : l1b.attrs.get? "xref_platform" = none) :
    (finish file c l1b l1bs).2.1.attrs.get? "xref_platform" = none := by
  have key : ∀ (g : String → Option Attr) (p first last : Name),
      "xref_platform" ∉ (heading "DeDop SRAL Level 1 Measurement" false g c ++
        ending p first last g c).map (·.1) := by
    intro g p first last
    have : (heading "DeDop SRAL Level 1 Measurement" false g c ++ ending p first last g c).map (·.1) =
      ["title", "mission_name", "altimeter_sensor_name", "gnss_sensor_name", "doris_sensor_name",
        "references", "acq_station_name", "xref_altimeter_level0", "xref_navatt_level0",
        "xref_altimeter_orbit", "xref_doris_uso", "xref_altimeter_ltm_lrm_cal1",
        "xref_altimeter_ltm_sar_cal1", "xref_altimeter_ltm_ku_cal2", "xref_altimeter_ltm_c_cal2",
        "xref_altimeter_characterisation", "xref_time_correlation", "semi_major_ellipsoid_axis",
        "ellipsoid_flattening", "netcdf_version", "product_name", "institution", "source", "history",
        "contact", "creation_time", "first_meas_time", "last_meas_time"] := rfl
    rw [this]
    decide +kernel
  unfold finish
  split
  · exact h
  · split
    · exact h
    · split
      · exact h
      · split
        · exact h
        · dsimp only
          split
          · dsimp only; rw [get?_writeGlobals_not _ _ _ (key _ _ _ _)]; exact h
          · split
            · dsimp only; rw [get?_writeGlobals_not _ _ _ (key _ _ _ _)]; exact h
            · dsimp only; rw [get?_writeGlobals_not _ _ _ (key _ _ _ _)]; exact h

/-- **C94** (product names).  A name of the usual form, with the level field once, gets the field of the
new level. -/
theorem product_name_level (pre post : Name) (h : Notebook.Once ['_', 'A', '_', '_'] pre post) :
    productName (some (.text (pre ++ ['_', 'A', '_', '_'] ++ post))) ['_', '_', '_', '_'] =
      .ok (pre ++ ['_', '_', '_', '_'] ++ post) ∧
    productName (some (.text (pre ++ ['_', 'A', '_', '_'] ++ post))) ['_', 'B', 'S', '_'] =
      .ok (pre ++ ['_', 'B', 'S', '_'] ++ post) := by
  constructor <;> (unfold productName; simp only; rw [Notebook.replace_once _ _ _ _ (by simp) h])

theorem replaceAux_eq_iff (pat a b : Name) (hp : pat ≠ []) (hab : a.length = b.length) (hne : a ≠ b)
    (n : Nat) (s : Name) (hn : s.length < n) :
    Notebook.replaceAux pat a n s = Notebook.replaceAux pat b n s ↔ ¬ pat <:+: s := by
  induction n generalizing s with
  | zero => omega
  | succ n ih =>
    cases s with
    | nil =>
      simp only [Notebook.replaceAux, true_iff]
      intro h
      exact hp (List.infix_nil.1 h)
    | cons c t =>
      simp only [Notebook.replaceAux]
      by_cases hpre : pat.isPrefixOf (c :: t) = true
      · rw [if_pos hpre, if_pos hpre]
        constructor
        · intro h
          exact absurd (List.append_inj_left h hab) hne
        · intro h
          exact absurd (List.isPrefixOf_iff_prefix.1 hpre).isInfix h
      · rw [if_neg hpre, if_neg hpre, List.cons_inj_right, ih t (by simp at hn; omega),
          List.infix_cons_iff, not_or]
        constructor
        · intro h; exact ⟨fun h' => hpre (List.isPrefixOf_iff_prefix.2 h'), h⟩
        · exact fun h => h.2

/-- **C94** (product names).  The names of the two products differ exactly if the name of the input has the
level field; otherwise (violation) both are the name of the input. -/
theorem product_names_differ_iff (name : Name) :
    productName (some (.text name)) ['_', '_', '_', '_'] ≠
      productName (some (.text name)) ['_', 'B', 'S', '_'] ↔ ['_', 'A', '_', '_'] <:+: name := by
  unfold productName
  simp only [ne_eq, Except.ok.injEq]
  unfold Notebook.replace
  rw [replaceAux_eq_iff ['_', 'A', '_', '_'] ['_', '_', '_', '_'] ['_', 'B', 'S', '_'] (by simp) rfl
    (by simp) (name.length + 1) name (by omega), not_not]

theorem product_names_same_violated (name : Name) (h : ¬ ['_', 'A', '_', '_'] <:+: name) :
    productName (some (.text name)) ['_', '_', '_', '_'] = .ok name ∧
    productName (some (.text name)) ['_', 'B', 'S', '_'] = .ok name := by
  unfold productName Notebook.replace
  simp only [Notebook.replaceAux_none _ _ _ _ h]
  exact ⟨trivial, trivial⟩

/-- Non-vacuity: the name of a Sentinel-3 product. -/
example : Notebook.Once ['_', 'A', '_', '_'] "S3A_SR_1_SRA".toList "20160415T124502".toList := by
  constructor <;> decide +kernel
example : (finish [("product_name", .text "S3A_SR_1_SRA_A__20160415".toList), ("mission_name", .text "S3".toList)]
    ⟨6378137, 1 / 298, [], [], [], .ok [], .ok []⟩ ⟨[], false⟩ none).2.1.attrs.get? "product_name" =
      some (.text "S3A_SR_1_SRA____20160415".toList) := by decide +kernel
example : (finish [("mission_name", .text "S3".toList)]
    ⟨6378137, 1 / 298, [], [], [], .ok [], .ok []⟩ ⟨[], false⟩ (some ⟨[], false⟩)) =
      (.error attributeError, ⟨[], false⟩, some ⟨[], false⟩) := by decide +kernel

/-! ## C95 -/

variable {K : Type} [DecidableEq K] {R : Type} [Field R] [LinearOrder R]

theorem reads_concat (f : Reader.File K ℚ) (k : Nat) (history : List (K × Int)) (v : K) (i : Int)
    (r : Reader.Reader K ℚ) : Reader.reads f k r (history ++ [(v, i)]) =
      (Reader.getValue f k (Reader.reads f k r history) v i).2 := by
  induction history generalizing r with
  | nil => rfl
  | cons a t ih => obtain ⟨v, i⟩ := a; exact ih _

omit [Field R] in
/-- **C95 (`_partial`)**, without a region: the times are those of the first and the last record of the
input, whatever was read before.  Missing: inputs read with a region, see below. -/
theorem times_partial (b : Reader.Bounds R) (p : Reader.Product R) (hb : Reader.roiEnabled b = false)
    (f : Reader.File K ℚ) (k : Nat) (hk : 0 < k) (time : K) (hv : time ∈ f.variables)
    (hlen : (f.data time).length = p.lats.length) (hne : 0 < p.lats.length)
    (history : List (K × Int)) :
    ∃ d, Reader.openDataset b p = .ok d ∧
      measTimes f k time d (Reader.reads f k Reader.Reader.fresh history) =
        (isoFormat ((f.data time)[0]), isoFormat ((f.data time)[p.lats.length - 1])) := by
  refine ⟨⟨none, 0, p.lats.length, 0⟩, by unfold Reader.openDataset; rw [hb]; rfl, ?_⟩
  have h1 := Reader.read_is_transparent f k hk history time hv 0 (by omega)
  have h2 := Reader.read_is_transparent f k hk (history ++ [(time, 0)]) time hv (p.lats.length - 1) (by omega)
  have hc : ((p.lats.length - 1 : Nat) : Int) = (p.lats.length : Int) - 1 := by omega
  rw [reads_concat, hc] at h2
  unfold measTimes firstTime lastTime
  simp only [Nat.cast_zero] at h1 ⊢
  rw [h1, h2]

/-- What a dataset opened with a region is: it starts at the first record inside and ends before the last
one. -/
theorem open_region (b : Reader.Bounds R) (p : Reader.Product R) (hp : p.lats.length = p.lons.length)
    (hb : Reader.roiEnabled b = true) (lo hi : Nat) (hlo : p.Inside b lo) (hhi : p.Inside b hi)
    (hmin : ∀ i, p.Inside b i → lo ≤ i) (hmax : ∀ i, p.Inside b i → i ≤ hi) :
    ∃ d, Reader.openDataset b p = .ok d ∧ d.start = lo ∧ d.final = hi ∧ hi < p.lats.length := by
  obtain ⟨_, hspec⟩ := Reader.roiFilter_spec b p.lats p.lons hp
  have hmem : ∀ i, i ∈ Reader.argwhere (Reader.roiFilter b p.lats p.lons) ↔ p.Inside b i :=
    fun i => (Reader.mem_argwhere _ i).trans (hspec i)
  have hmx : (Reader.argwhere (Reader.roiFilter b p.lats p.lons)).max? = some hi :=
    List.max?_eq_some_iff.2 ⟨(hmem hi).2 hhi, fun i h => hmax i ((hmem i).1 h)⟩
  have hmn : (Reader.argwhere (Reader.roiFilter b p.lats p.lons)).min? = some lo :=
    List.min?_eq_some_iff.2 ⟨(hmem lo).2 hlo, fun i h => hmin i ((hmem i).1 h)⟩
  refine ⟨⟨some (Reader.roiFilter b p.lats p.lons), lo, hi, lo⟩, ?_, rfl, rfl, ?_⟩
  · unfold Reader.openDataset
    rw [if_pos hb]
    simp only [hmn, hmx]
  · obtain ⟨lat, lon, h, _⟩ := hhi
    exact (List.getElem?_eq_some_iff.1 h).1

/-- **C95 is violated** by every region: the first time is that of the first record inside, but the last
time is that of the record before the last one inside (which may itself be outside). -/
theorem region_times_violated (b : Reader.Bounds R) (p : Reader.Product R)
    (hp : p.lats.length = p.lons.length) (hb : Reader.roiEnabled b = true) (lo hi : Nat)
    (hlo : p.Inside b lo) (hhi : p.Inside b hi) (hmin : ∀ i, p.Inside b i → lo ≤ i)
    (hmax : ∀ i, p.Inside b i → i ≤ hi) (hpos : 0 < hi)
    (f : Reader.File K ℚ) (k : Nat) (hk : 0 < k) (time : K) (hv : time ∈ f.variables)
    (hlen : (f.data time).length = p.lats.length) (history : List (K × Int)) :
    ∃ d, ∃ h1 : lo < (f.data time).length, ∃ h2 : hi - 1 < (f.data time).length,
      Reader.openDataset b p = .ok d ∧
      measTimes f k time d (Reader.reads f k Reader.Reader.fresh history) =
        (isoFormat ((f.data time)[lo]), isoFormat ((f.data time)[hi - 1])) := by
  obtain ⟨d, hd, rfl, rfl, hlt⟩ := open_region b p hp hb lo hi hlo hhi hmin hmax
  have hle := hmin _ hhi
  refine ⟨d, by omega, by omega, hd, ?_⟩
  have h1 := Reader.read_is_transparent f k hk history time hv d.start (by omega)
  have h2 := Reader.read_is_transparent f k hk (history ++ [(time, (d.start : Int))]) time hv (d.final - 1)
    (by omega)
  have hc : ((d.final - 1 : Nat) : Int) = (d.final : Int) - 1 := by omega
  rw [reads_concat, hc] at h2
  unfold measTimes firstTime lastTime
  simp only
  rw [h1, h2]

/-- … so that, on a track with increasing times and a single record inside, the last time is before the
first one. -/
theorem region_times_reversed_violated (b : Reader.Bounds R) (p : Reader.Product R)
    (hp : p.lats.length = p.lons.length) (hb : Reader.roiEnabled b = true) (i : Nat)
    (hi : p.Inside b i) (honly : ∀ j, p.Inside b j → j = i) (hpos : 0 < i)
    (f : Reader.File K ℚ) (k : Nat) (hk : 0 < k) (time : K) (hv : time ∈ f.variables)
    (hlen : (f.data time).length = p.lats.length) (hinc : (f.data time).Pairwise (· < ·))
    (history : List (K × Int)) :
    ∃ d s t, Reader.openDataset b p = .ok d ∧ t < s ∧
      measTimes f k time d (Reader.reads f k Reader.Reader.fresh history) = (isoFormat s, isoFormat t) := by
  obtain ⟨d, h1, h2, hd, he⟩ := region_times_violated b p hp hb i i hi hi (fun j h => (honly j h).ge)
    (fun j h => (honly j h).le) hpos f k hk time hv hlen history
  exact ⟨d, _, _, hd, List.pairwise_iff_getElem.1 hinc (i - 1) i h2 h1 (by omega), he⟩

/-- **C95 is violated**, and the run fails at its end with its products not closed, if the only record
inside the region is the first one of the file. -/
theorem region_first_record_violated (b : Reader.Bounds R) (p : Reader.Product R)
    (hp : p.lats.length = p.lons.length) (hb : Reader.roiEnabled b = true)
    (hi : p.Inside b 0) (honly : ∀ j, p.Inside b j → j = 0)
    (f : Reader.File K ℚ) (k : Nat) (hk : 0 < k) (time : K) (hv : time ∈ f.variables)
    (hlen : (f.data time).length = p.lats.length) (history : List (K × Int))
    (hh : ∀ q ∈ history, 0 ≤ q.2) :
    ∃ d, Reader.openDataset b p = .ok d ∧
      (measTimes f k time d (Reader.reads f k Reader.Reader.fresh history)).2 = .error .indexError ∧
      ∀ (file : Attrs) (c : Ctx) (l1b : Out) (l1bs : Option Out),
        c.last = (measTimes f k time d (Reader.reads f k Reader.Reader.fresh history)).2 →
        ∃ e, finish file c l1b l1bs = (.error e, l1b, l1bs) := by
  obtain ⟨d, hd, hs, hf, hlt⟩ := open_region b p hp hb 0 0 hi hi (fun _ _ => Nat.zero_le _)
    (fun j h => (honly j h).le)
  have herr : (measTimes f k time d (Reader.reads f k Reader.Reader.fresh history)).2 =
      .error .indexError := by
    unfold measTimes firstTime lastTime
    simp only [hs, hf, Nat.cast_zero]
    rw [← reads_concat]
    have hbl := Reader.blocks_reads f k _ (Reader.blocks_fresh f k) (history ++ [(time, (0 : Int))])
      (by intro q hq
          rcases List.mem_append.1 hq with hq | hq
          · exact hh q hq
          · rw [List.mem_singleton] at hq; subst hq; exact le_refl _)
    generalize Reader.reads f k Reader.Reader.fresh (history ++ [(time, (0 : Int))]) = r at hbl
    rw [Reader.getValue_eq]
    have hmod : (0 - 1 : Int) % (k : Int) = (k : Int) - 1 := by
      have h := Int.add_emod_right (0 - 1 : Int) (k : Int)
      rw [← h]
      rw [Int.emod_eq_of_lt] <;> omega
    have hst : (0 - 1 : Int) - (0 - 1 : Int) % (k : Int) = -(k : Int) := by rw [hmod]; omega
    have hready : Reader.readyFor f k r (0 - 1) = Reader.loadChunk f k r (-(k : Int)) := by
      unfold Reader.readyFor
      rw [hst, if_pos]
      intro hc
      have := hbl.1 _ hc.symm
      omega
    rw [hready]
    unfold Reader.loadChunk
    simp only
    rw [Reader.get?_load, if_pos ⟨hv, by omega⟩]
    have hempty : Reader.pySlice (f.data time) (-(k : Int))
        (min ((f.data time).length : Int) (-(k : Int) + k)) = [] := by
      have : min ((f.data time).length : Int) (-(k : Int) + k) = ((0 : Nat) : Int) := by
        push_cast; omega
      rw [this]
      unfold Reader.pySlice
      rw [Reader.sliceBound_nonneg]
      simp
    rw [hempty]
    simp
  refine ⟨d, hd, herr, fun file c l1b l1bs hc => ?_⟩
  rw [herr] at hc
  unfold finish
  split
  · exact ⟨_, rfl⟩
  · split
    · exact ⟨_, rfl⟩
    · rw [hc]; exact ⟨_, rfl⟩

/-- Non-vacuity: three records, of which the second is in the region: the last time is that of the first
record. -/
example :
    let p : Reader.Product ℚ := ⟨[0, 1, 0], [5, 5, 5]⟩
    let f : Reader.File Unit ℚ := ⟨[()], fun _ => [10, 11, 12]⟩
    ∃ d, Reader.openDataset ⟨some 1, none, none, none⟩ p = .ok d ∧
      measTimes f 40 () d Reader.Reader.fresh =
        (.ok "2000-01-01T00:00:11+00:00".toList, .ok "2000-01-01T00:00:10+00:00".toList) :=
  ⟨_, rfl, by decide +kernel⟩

end Dedop.Globals
