import Verif.Basic.Dict

/-!
# Chunked reading of NetCDF files (model)

Models `NetCDFReader` of `/repo/dedop/data/input/netcdf_reader.py`.  A variable is the list of its
values along the first dimension; its entries (numbers or arrays) are of an abstract type.
-/
namespace Dedop.Reader

variable {K A : Type} [DecidableEq K]

/-- An open document: `variables` is the enumeration `L1AVariables`, `data` what the file holds. -/
structure File (K A : Type) where
  variables : List K
  data : K → List A

/-- The reader (`netcdf_reader.py:26-29`): cached chunks and the start of the chunk loaded last. -/
structure Reader (K A : Type) where
  cache : Dict K (List A)
  chunkIndex : Option Int

/-- A new reader (`netcdf_reader.py:27-28`). -/
def Reader.fresh : Reader K A := ⟨[], none⟩

/-- Python's start and stop of a slice of a sequence of length `n`.
Python semantics, for `netcdf_reader.py:60-75`. -/
def sliceBound (n : Nat) (i : Int) : Nat :=
  if i < 0 then (i + n).toNat else min i.toNat n

/-- `l[a:b]`.  Used in `netcdf_reader.py:60-75`. -/
def pySlice (l : List A) (a b : Int) : List A :=
  (l.take (sliceBound l.length b)).drop (sliceBound l.length a)

/-- One turn of the loop of `_load_chunk` (`netcdf_reader.py:63-73`). -/
def loadVar (f : File K A) (chunkSize : Nat) (chunkStart : Int) (cache : Dict K (List A)) (v : K) :
    Dict K (List A) :=
  if chunkStart ≥ (f.data v).length then cache
  else cache.set v
    (pySlice (f.data v) chunkStart (min ((f.data v).length : Int) (chunkStart + chunkSize)))

/-- `_load_chunk` (`netcdf_reader.py:57-75`). -/
def loadChunk (f : File K A) (chunkSize : Nat) (r : Reader K A) (chunkStart : Int) : Reader K A :=
  { cache := f.variables.foldl (loadVar f chunkSize chunkStart) r.cache
    chunkIndex := some chunkStart }

/-- `get_value` (`netcdf_reader.py:45-55`): the outcome and the reader afterwards.  The chunk size is
positive, `%` is Python's (the result is not negative). -/
def getValue (f : File K A) (chunkSize : Nat) (r : Reader K A) (v : K) (index : Int) :
    Except PyErr A × Reader K A :=
  let i := index % chunkSize
  let start := index - i
  let r := if some start ≠ r.chunkIndex then loadChunk f chunkSize r start else r
  match r.cache.get? v with
  | none => (.error (.keyError "varname"), r)
  | some l =>
    match l[i.toNat]? with
    | none => (.error .indexError, r)
    | some a => (.ok a, r)

/-- A history of reads, each successful or not.
Not a function of the code: any sequence of calls of `netcdf_reader.py:40-84`. -/
def reads (f : File K A) (chunkSize : Nat) (r : Reader K A) : List (K × Int) → Reader K A
  | [] => r
  | (v, i) :: h => reads f chunkSize (getValue f chunkSize r v i).2 h

end Dedop.Reader
