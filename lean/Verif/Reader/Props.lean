import Verif.Reader.Lemmas

/-! # Chunked reading: property C24 -/
namespace Dedop.Reader
variable {K A : Type} [DecidableEq K]

/-- **C24.**  For every chunk size, every file and every history of reads (of any variables and
indices, successful or not), reading an existing record returns exactly that record. -/
theorem read_is_transparent (f : File K A) (k : Nat) (hk : 0 < k) (history : List (K × Int)) (v : K)
    (hv : v ∈ f.variables) (i : Nat) (hi : i < (f.data v).length) :
    (getValue f k (reads f k Reader.fresh history) v i).1 = .ok ((f.data v)[i]) := by
  have hl := loaded_reads f k Reader.fresh (loaded_fresh f k) history
  generalize reads f k Reader.fresh history = r at hl
  obtain ⟨h1, h2⟩ := loaded_readyFor f k r hl i
  have hs : (i : Int) - (i : Int) % (k : Int) = ((k * (i / k) : Nat) : Int) := by
    rw [← Int.natCast_emod]
    have := Nat.div_add_mod i k
    omega
  rw [hs] at h2
  have hdm := Nat.div_add_mod i k
  have hb := h1 _ h2 v hv (by omega)
  rw [getValue_eq]
  simp only [hb]
  have hm : ((i : Int) % (k : Int)).toNat = i % k := by rw [← Int.natCast_emod, Int.toNat_natCast]
  rw [hm, block_getElem? _ _ _ _ (Nat.mod_lt _ hk), hdm, List.getElem?_eq_getElem hi]

/-- **C24, reading beyond the end (`_partial`).**  With a fresh reader it is an error, and always so if the
chunk still holds a record.  Otherwise it is an error or (missing: the claim is false, see
`read_beyond_end_violated`) an old record whose index is the requested one modulo the chunk size. -/
theorem read_beyond_end_partial (f : File K A) (k : Nat) (hk : 0 < k) (v : K)
    (hv : v ∈ f.variables) (i : Nat) (hi : (f.data v).length ≤ i) :
    (∃ e, (getValue f k Reader.fresh v i).1 = .error e) ∧
    ∀ history : List (K × Int), (∀ p ∈ history, 0 ≤ p.2) →
      (k * (i / k) < (f.data v).length →
        (getValue f k (reads f k Reader.fresh history) v i).1 = .error .indexError) ∧
      ((∃ e, (getValue f k (reads f k Reader.fresh history) v i).1 = .error e) ∨
        ∃ j, ∃ h : j < (f.data v).length, j % k = i % k ∧
          (getValue f k (reads f k Reader.fresh history) v i).1 = .ok ((f.data v)[j])) := by
  have hm : ((i : Int) % (k : Int)).toNat = i % k := by rw [← Int.natCast_emod, Int.toNat_natCast]
  have hs : (i : Int) - (i : Int) % (k : Int) = ((k * (i / k) : Nat) : Int) := by
    rw [← Int.natCast_emod]
    have := Nat.div_add_mod i k
    omega
  have hdm := Nat.div_add_mod i k
  have part1 : ∀ history : List (K × Int), k * (i / k) < (f.data v).length →
      (getValue f k (reads f k Reader.fresh history) v i).1 = .error .indexError := by
    intro history hlt
    have hl := loaded_reads f k Reader.fresh (loaded_fresh f k) history
    generalize reads f k Reader.fresh history = r at hl
    obtain ⟨h1, h2⟩ := loaded_readyFor f k r hl i
    rw [hs] at h2
    have hb := h1 _ h2 v hv hlt
    rw [getValue_eq]
    simp only [hb]
    rw [hm, block_getElem? _ _ _ _ (Nat.mod_lt _ hk), hdm, List.getElem?_eq_none hi]
  refine ⟨?_, fun history hpos => ⟨part1 history, ?_⟩⟩
  · by_cases hlt : k * (i / k) < (f.data v).length
    · exact ⟨_, part1 [] hlt⟩
    · refine ⟨.keyError "varname", ?_⟩
      rw [getValue_eq]
      have : (readyFor f k (Reader.fresh : Reader K A) i).cache.get? v = none := by
        unfold readyFor Reader.fresh
        rw [if_pos (by simp)]
        unfold loadChunk
        simp only
        rw [get?_load, if_neg (by rw [hs]; rintro ⟨-, h⟩; omega)]
        rfl
      simp only [this]
  · have hb := blocks_reads f k Reader.fresh (blocks_fresh f k) history hpos
    generalize reads f k Reader.fresh history = r at hb
    have hb' := blocks_readyFor f k r hb i
    rw [getValue_eq]
    cases hc : (readyFor f k r i).cache.get? v with
    | none => exact Or.inl ⟨_, rfl⟩
    | some l =>
      obtain ⟨-, q, rfl⟩ := hb'.2 v l hc
      simp only
      rw [hm, block_getElem? _ _ _ _ (Nat.mod_lt _ hk)]
      cases hg : (f.data v)[k * q + i % k]? with
      | none => exact Or.inl ⟨_, rfl⟩
      | some a =>
        right
        obtain ⟨h, ha⟩ := List.getElem?_eq_some_iff.1 hg
        refine ⟨_, h, ?_, by rw [ha]⟩
        rw [Nat.mul_add_mod]
        exact Nat.mod_mod _ _

/-- **C24 is violated beyond the end**: after a read of record 0, reading record 80 of a product with 10
records returns record 0. -/
theorem read_beyond_end_violated :
    let f : File Unit Nat := ⟨[()], fun _ => [10, 11, 12, 13, 14, 15, 16, 17, 18, 19]⟩
    (getValue f 40 (reads f 40 Reader.fresh [((), 0)]) () 80).1 = .ok 10 := by
  decide +kernel

/-- Two variables of different lengths, read across chunks. -/
example :
    let f : File Bool Nat := ⟨[true, false], fun b => if b then [1, 2, 3, 4, 5] else [7, 8]⟩
    (getValue f 2 (reads f 2 Reader.fresh [(true, 4), (false, 0), (true, 9), (false, -1)]) true 3).1 =
      .ok 4 := by
  decide +kernel

end Dedop.Reader
