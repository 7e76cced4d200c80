import Verif.Reader.Model
import Verif.Basic.Tactics

namespace Dedop.Reader
variable {K A : Type} [DecidableEq K]

theorem sliceBound_nonneg (n : Nat) (i : Nat) : sliceBound n (i : Int) = min i n := by
  unfold sliceBound
  rw [if_neg (by omega)]
  simp

/-- The block of `k` values from position `s`. -/
def block (l : List A) (s k : Nat) : List A := (l.drop s).take k

theorem pySlice_block (l : List A) (s k : Nat) :
    pySlice l (s : Int) (min (l.length : Int) ((s : Int) + k)) = block l s k := by
  have h1 : min (l.length : Int) ((s : Int) + k) = ((min l.length (s + k) : Nat) : Int) := by omega
  unfold pySlice block
  rw [h1, sliceBound_nonneg, sliceBound_nonneg, List.drop_take]
  by_cases h : s ≤ l.length
  · rw [Nat.min_eq_left h]
    by_cases h2 : s + k ≤ l.length
    · congr 1; omega
    · rw [List.take_of_length_le (l := List.drop s l), List.take_of_length_le (l := List.drop s l)]
      · rw [List.length_drop]; omega
      · rw [List.length_drop]; omega
  · rw [List.drop_eq_nil_of_le (by omega), List.drop_eq_nil_of_le (by omega)]
    simp

theorem get?_load (f : File K A) (k : Nat) (start : Int) (vs : List K) (c : Dict K (List A)) (v : K) :
    (vs.foldl (loadVar f k start) c).get? v =
      if v ∈ vs ∧ start < (f.data v).length then
        some (pySlice (f.data v) start (min ((f.data v).length : Int) (start + k)))
      else c.get? v := by
  induction vs generalizing c with
  | nil => simp
  | cons w vs ih =>
    rw [List.foldl_cons, ih]
    by_cases h1 : v ∈ vs ∧ start < (f.data v).length
    · rw [if_pos h1, if_pos ⟨List.mem_cons_of_mem _ h1.1, h1.2⟩]
    · rw [if_neg h1]
      unfold loadVar
      by_cases hvw : v = w
      · subst hvw
        by_cases hs : start < (f.data v).length
        · rw [if_neg (by omega), if_pos ⟨List.mem_cons_self, hs⟩, Dict.get?_set, if_pos rfl]
        · rw [if_pos (by omega), if_neg (fun h => hs h.2)]
      · have : ¬ (v ∈ w :: vs ∧ start < (f.data v).length) := by
          rintro ⟨h, h'⟩
          rcases List.mem_cons.1 h with h | h
          · exact hvw h
          · exact h1 ⟨h, h'⟩
        rw [if_neg this]
        split
        · rfl
        · rw [Dict.get?_set, if_neg hvw]

/-- What is known of the cache after any history: the chunk of the current start is loaded. -/
def Loaded (f : File K A) (k : Nat) (r : Reader K A) : Prop :=
  ∀ s : Nat, r.chunkIndex = some (s : Int) → ∀ v ∈ f.variables, s < (f.data v).length →
    r.cache.get? v = some (block (f.data v) s k)

theorem loaded_loadChunk (f : File K A) (k : Nat) (r : Reader K A) (start : Int) :
    Loaded f k (loadChunk f k r start) := by
  intro s hs v hv hlen
  simp only [loadChunk, Option.some.injEq] at hs
  subst hs
  unfold loadChunk
  rw [get?_load, if_pos ⟨hv, by omega⟩, pySlice_block]

/-- The reader used for the lookup in `getValue`. -/
def readyFor (f : File K A) (k : Nat) (r : Reader K A) (index : Int) : Reader K A :=
  if some (index - index % k) ≠ r.chunkIndex then loadChunk f k r (index - index % k) else r

theorem getValue_eq (f : File K A) (k : Nat) (r : Reader K A) (v : K) (index : Int) :
    getValue f k r v index =
      ((match (readyFor f k r index).cache.get? v with
        | none => .error (.keyError "varname")
        | some l =>
          match l[(index % k).toNat]? with
          | none => .error .indexError
          | some a => .ok a), readyFor f k r index) := by
  unfold getValue readyFor
  simp only
  generalize (if some (index - index % ↑k) ≠ r.chunkIndex then
    loadChunk f k r (index - index % ↑k) else r) = r'
  cases Dict.get? r'.cache v with
  | none => rfl
  | some l => cases hl : l[(index % (k : Int)).toNat]? <;> simp only [hl]

theorem loaded_readyFor (f : File K A) (k : Nat) (r : Reader K A) (h : Loaded f k r) (index : Int) :
    Loaded f k (readyFor f k r index) ∧
      (readyFor f k r index).chunkIndex = some (index - index % k) := by
  unfold readyFor
  split
  · exact ⟨loaded_loadChunk f k r _, rfl⟩
  · rename_i hn
    exact ⟨h, (not_not.1 hn).symm⟩

theorem loaded_reads (f : File K A) (k : Nat) (r : Reader K A) (h : Loaded f k r)
    (hist : List (K × Int)) : Loaded f k (reads f k r hist) := by
  induction hist generalizing r with
  | nil => exact h
  | cons p hist ih =>
    obtain ⟨v, i⟩ := p
    unfold reads
    refine ih _ ?_
    rw [getValue_eq]
    exact (loaded_readyFor f k r h i).1

theorem loaded_fresh (f : File K A) (k : Nat) : Loaded f k (Reader.fresh : Reader K A) := by
  intro s hs; cases hs

/-- Every cached block is some block of the variable, at a multiple of the chunk size. -/
def Blocks (f : File K A) (k : Nat) (r : Reader K A) : Prop :=
  (∀ s, r.chunkIndex = some s → 0 ≤ s) ∧
  ∀ v l, r.cache.get? v = some l → v ∈ f.variables ∧ ∃ q : Nat, l = block (f.data v) (k * q) k

theorem blocks_readyFor (f : File K A) (k : Nat) (r : Reader K A) (h : Blocks f k r)
    (i : Nat) : Blocks f k (readyFor f k r i) := by
  unfold readyFor
  split
  · refine ⟨?_, ?_⟩
    · intro s hs
      simp only [loadChunk, Option.some.injEq] at hs
      subst hs
      rw [← Int.natCast_emod]
      have := Nat.mod_le i k
      omega
    · intro v l hl
      unfold loadChunk at hl
      simp only at hl
      rw [get?_load] at hl
      split at hl
      · rename_i hv
        refine ⟨hv.1, i / k, ?_⟩
        simp only [Option.some.injEq] at hl
        have hs : (i : Int) - (i : Int) % (k : Int) = ((k * (i / k) : Nat) : Int) := by
          rw [← Int.natCast_emod]
          have := Nat.div_add_mod i k
          omega
        rw [hs, pySlice_block] at hl
        exact hl.symm
      · exact h.2 v l hl
  · exact h

theorem blocks_reads (f : File K A) (k : Nat) (r : Reader K A) (h : Blocks f k r)
    (hist : List (K × Int)) (hpos : ∀ p ∈ hist, 0 ≤ p.2) : Blocks f k (reads f k r hist) := by
  induction hist generalizing r with
  | nil => exact h
  | cons p hist ih =>
    obtain ⟨v, i⟩ := p
    unfold reads
    have h0 : 0 ≤ i := hpos (v, i) List.mem_cons_self
    refine ih _ ?_ (fun p hp => hpos p (List.mem_cons_of_mem _ hp))
    rw [getValue_eq]
    have := blocks_readyFor f k r h i.toNat
    rwa [Int.toNat_of_nonneg h0] at this

theorem blocks_fresh (f : File K A) (k : Nat) : Blocks f k (Reader.fresh : Reader K A) :=
  ⟨fun s hs => by (cases hs), fun v l h => by (cases h)⟩

theorem block_getElem? (l : List A) (s k j : Nat) (hj : j < k) : (block l s k)[j]? = l[s + j]? := by
  unfold block
  rw [List.getElem?_take, if_pos hj, List.getElem?_drop]

end Dedop.Reader
