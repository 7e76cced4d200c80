import Verif.Names.Model
import Verif.Writer.Model
import Verif.Basic.Dict
/-!
# Inspecting and comparing products: figures, limits, images, histograms

Model of `dedop/ui/figurewriter.py`, `dedop/ui/inspect.py` and `dedop/ui/compare.py`.  Matplotlib is represented by what it
is asked to draw; pixels, colours, labels of the axes and the notebook widgets are not modelled.
-/
namespace Dedop.Figures
open Dedop.Names (Name basename stem join)

/-! ## The figure writer -/

/-- The two output formats (figurewriter.py 33). -/
inductive Format where
  | pdf
  | dir
  deriving DecidableEq, Repr

/-- A file on disk.  `unfinished` is a PDF file that has been opened but not closed.
Written in `figurewriter.py:60-88`. -/
inductive File (F : Type) where
  | image (f : F)
  | document (pages : List F)
  | unfinished
  deriving DecidableEq, Repr

/-- The files on disk by path.  Stands for the file system used in `figurewriter.py:36-88`. -/
abbrev Disk (F : Type) := Name → Option (File F)

/-- Writing a file replaces what was there.  As `open` and `savefig` do in `figurewriter.py:60-88`. -/
def Disk.put {F : Type} (d : Disk F) (p : Name) (f : File F) : Disk F := fun q => if q = p then some f else d q

/-- `FigureWriter` (figurewriter.py 16-19): the output path and format, and the pages of the PDF file being written. -/
structure Writer (F : Type) where
  path : Name
  format : Format
  pages : Option (List F)
  deriving DecidableEq, Repr

/-- The extension `os.path.splitext(p)[1]` of the last component of a path. -/
def extension (p : Name) : Name := (basename p).drop (stem (basename p)).length

/-- `os.path.dirname` (POSIX): what precedes the last `/`, without trailing `/` unless there is nothing else.
Used in `figurewriter.py:42`. -/
def dirname (p : Name) : Name :=
  let head := (p.reverse.dropWhile (· ≠ '/')).reverse
  if head.all (· = '/') then head else (head.reverse.dropWhile (· = '/')).reverse

/-- The names of the formats after `lower()` (figurewriter.py 23-34); no letter outside ASCII is lowered to one of theirs. -/
def parseFormat (s : Name) : Except PyErr Format :=
  if s.map Char.toLower = ['p', 'd', 'f'] then .ok .pdf
  else if s.map Char.toLower = ['d', 'i', 'r'] then .ok .dir
  else .error .valueError

/-- `FigureWriter.__init__` (figurewriter.py 15-50).  An empty `fmt` stands for `None` and `''`. -/
def init {F : Type} (path fmt : Name) : Except PyErr (Writer F) :=
  if path = [] then .error .valueError
  else
    let format :=
      if fmt = [] then
        (if (extension path).length > 1 then parseFormat ((extension path).drop 1) else .ok .dir)
      else parseFormat fmt
    match format with
    | .error e => .error e
    | .ok .dir => .ok ⟨path, .dir, none⟩
    | .ok .pdf =>
      let base := stem (basename path)
      let ext := extension path
      if base = [] then .error .valueError
      else if ext = [] then .ok ⟨join (dirname path) (base ++ ['.', 'p', 'd', 'f']), .pdf, none⟩
      else if ext = ['.', 'p', 'd', 'f'] ∨ ext = ['.', 'P', 'D', 'F'] then .ok ⟨join (dirname path) (base ++ ext), .pdf, none⟩
      else .error .valueError

/-- `FigureWriter.savefig` (figurewriter.py 60-83) for the current figure `fig`.  Creating missing directories is left out.
Opening a PDF file destroys what was in it. -/
def savefig {F : Type} (w : Writer F) (d : Disk F) (name : Name) (fig : F) : Except PyErr (Writer F × Disk F) :=
  match w.format with
  | .pdf =>
    match w.pages with
    | none => .ok ({ w with pages := some [fig] }, d.put w.path .unfinished)
    | some ps => .ok ({ w with pages := some (ps ++ [fig]) }, d)
  | .dir =>
    if name = [] then .error .valueError
    else .ok (w, d.put (join w.path name) (.image fig))

/-- `FigureWriter.close` (figurewriter.py 85-88). -/
def close {F : Type} (w : Writer F) (d : Disk F) : Writer F × Disk F :=
  match w.pages with
  | none => (w, d)
  | some ps => ({ w with pages := none }, d.put w.path (.document ps))

/-- Calls on one figure writer.  `figurewriter.py:60-88`. -/
inductive Call (F : Type) where
  | save (name : Name) (fig : F)
  | close
  deriving DecidableEq, Repr

/-- A sequence of calls; the first exception ends it.
Not a function of the code: any sequence of calls of `figurewriter.py:60-88`. -/
def calls {F : Type} : Writer F → Disk F → List (Call F) → Except PyErr (Writer F × Disk F)
  | w, d, [] => .ok (w, d)
  | w, d, .save n f :: t =>
    match savefig w d n f with
    | .error e => .error e
    | .ok (w', d') => calls w' d' t
  | w, d, .close :: t => calls (close w d).1 (close w d).2 t

/-! ## The plots of an inspector and a comparator -/

/-- The plots that end with `savefig` and what their file name depends on (inspect.py 224, 285, 317, 346, 386, 493, 602-611). -/
inductive Plot where
  | waveformIm
  | waveform3d (kind : Name)
  | waveformHist
  | waveformLine (ind : Nat)
  | im (z : Name)
  | line (x y : Name)
  | imLine (z : Name) (xind yind : Option Nat)
  deriving DecidableEq, Repr

/-- The file names used by the plots (same lines).  `inspect.py:212-611`, `compare.py:203-334`. -/
def Plot.file : Plot → Name
  | .waveformIm => ['f', 'i', 'g', '-'] ++ "waveform-im.png".toList
  | .waveform3d k => ['f', 'i', 'g', '-'] ++ "waveform-3d-".toList ++ k ++ ".png".toList
  | .waveformHist => ['f', 'i', 'g', '-'] ++ "waveform-hist.png".toList
  | .waveformLine i => ['f', 'i', 'g', '-'] ++ "waveform-x-".toList ++ Names.decimal i ++ ".png".toList
  | .im z => ['f', 'i', 'g', '-'] ++ z ++ ".png".toList
  | .line x y => ['f', 'i', 'g', '-'] ++ x ++ "-over-".toList ++ y ++ ".png".toList
  | .imLine z (some x) (some y) =>
    ['f', 'i', 'g', '-'] ++ z ++ "-x-".toList ++ Names.decimal x ++ "-y-".toList ++ Names.decimal y ++ ".png".toList
  | .imLine z (some x) none => ['f', 'i', 'g', '-'] ++ z ++ "-x-".toList ++ Names.decimal x ++ ".png".toList
  | .imLine z none (some y) => ['f', 'i', 'g', '-'] ++ z ++ "-y-".toList ++ Names.decimal y ++ ".png".toList
  | .imLine z none none => ['f', 'i', 'g', '-'] ++ z ++ ".png".toList

/-- The two products of a comparator; both inspectors share the comparator's figure writer (compare.py 73-74). -/
inductive Product where
  | p1
  | p2
  deriving DecidableEq, Repr

/-- `comparator.p1.plot.…` and `comparator.p2.plot.…`: the figure is the plot of that product. -/
def productCall (p : Product) (q : Plot) : Call (Product × Plot) := .save q.file (p, q)

/-! ## Limits -/

variable {K : Type} [Field K] [LinearOrder K]

/-- `v if v else default` (inspect.py 213-214, 297-298, 374-375, 553-554; compare.py 204-205 and the other plots):
`None` and `0` are both false. -/
def orDefault (v : Option K) (d : K) : K :=
  match v with
  | none => d
  | some x => if x = 0 then d else x

/-- `v if v is not None else default` (inspect.py 280). -/
def ifGiven (v : Option K) (d : K) : K := v.getD d

/-- `vmax = vmin + 1 if vmin == vmax else vmax` (inspect.py 299, compare.py 232). -/
def widen (r : K × K) : K × K := (r.1, if r.1 = r.2 then r.1 + 1 else r.2)

/-- `ndarray.min()`; `none` stands for the `ValueError` on an empty array.
Used in `inspect.py:124, 374-375, 553-554`. -/
def npMin : List K → Option K
  | [] => none
  | x :: t => some (t.foldl min x)

/-- A two-dimensional array by rows.  For `inspect.py:119-124`. -/
abbrev Grid (K : Type) := List (List K)

/-- A variable of the product: names of its dimensions and, if there are two of them, its values.
For `inspect.py:354-380, 530-560`. -/
structure Variable (K : Type) where
  dims : List Name
  values : Grid K
  deriving DecidableEq, Repr

/-- `L1bProductInspector` as used by the plots: the variables of the file and the array `waveform`. -/
structure Inspector (K : Type) where
  vars : Dict Name (Variable K)
  waveform : Grid K
  deriving DecidableEq, Repr

/-- `(data.min(), data.max())`.  `inspect.py:124`, `compare.py:128-132`. -/
def gridRange (g : Grid K) : Except PyErr (K × K) :=
  match npMin g.flatten, Writer.npMax g.flatten with
  | some a, some b => .ok (a, b)
  | _, _ => .error .valueError

/-- What is drawn: a message instead of a plot, or an image with its title (without units), range of colours and the cuts
beside it.  `inspect.py:348-386, 541-611`. -/
inductive Drawn (K : Type) where
  | message
  | image (values : Grid K) (range : K × K) (title : Name) (row column : Option (List K))
  deriving DecidableEq, Repr

/-- `waveform_im` (inspect.py 212-224): the whole array with the limits. -/
def waveformIm (i : Inspector K) (vmin vmax : Option K) : Except PyErr (Drawn K) :=
  match gridRange i.waveform with
  | .error e => .error e
  | .ok r => .ok (.image i.waveform (orDefault vmin r.1, orDefault vmax r.2) "Waveform".toList none none)

/-- `_waveform_3d` (inspect.py 235-285), the limits of the z axis. -/
def waveform3dRange (i : Inspector K) (zmin zmax : Option K) : Except PyErr (K × K) :=
  match gridRange i.waveform with
  | .error e => .error e
  | .ok r => .ok (ifGiven zmin r.1, ifGiven zmax r.2)

/-- A limit that falls back to the minimum or maximum of the data; `data.min()` is evaluated only when needed.
`inspect.py:374-375, 553-554`. -/
def limit (v : Option K) (d : Option K) : Except PyErr K :=
  match v with
  | some x => if x = 0 then (match d with | some m => .ok m | none => .error .valueError) else .ok x
  | none => match d with | some m => .ok m | none => .error .valueError

/-- `_plot_im` (inspect.py 364-386). -/
def plotIm (i : Inspector K) (z : Name) (zmin zmax : Option K) : Except PyErr (Drawn K) :=
  match i.vars.get? z with
  | none => .ok .message
  | some v =>
    if v.dims.length ≠ 2 then .ok .message
    else
      match limit zmin (npMin v.values.flatten), limit zmax (Writer.npMax v.values.flatten) with
      | .ok a, .ok b => .ok (.image i.waveform (a, b) z none none)
      | .error e, _ => .error e
      | _, .error e => .error e

/-- `im` (inspect.py 348-362).  In a notebook, without a variable, a choice of variables is offered and `pick` is what the
user selects. -/
def im (i : Inspector K) (interactive : Bool) (pick : Name) (z : Option Name) (zmin zmax : Option K) : Except PyErr (Drawn K) :=
  match z with
  | some z => plotIm i z zmin zmax
  | none => if interactive then plotIm i pick zmax zmax else .error .valueError

/-- Row `yind` of an array; `z_var[yind]` fails outside of it.  `inspect.py:541-611`. -/
def rowOf (g : Grid K) : Option Nat → Except PyErr (Option (List K))
  | none => .ok none
  | some y => match g[y]? with
    | some r => .ok (some r)
    | none => .error .indexError

/-- Column `xind` of an array, `z_var[:, xind]`.  `inspect.py:541-611`. -/
def columnOf (g : Grid K) : Option Nat → Except PyErr (Option (List K))
  | none => .ok none
  | some x => match g.mapM (fun r => r[x]?) with
    | some c => .ok (some c)
    | none => .error .indexError

/-- `_plot_im_line` (inspect.py 541-611): the image and the cuts along the chosen row and column. -/
def plotImLine (i : Inspector K) (z : Name) (zmin zmax : Option K) (xind yind : Option Nat) : Except PyErr (Drawn K) :=
  match i.vars.get? z with
  | none => .ok .message
  | some v =>
    if v.dims.length ≠ 2 then .ok .message
    else
      match limit zmin (npMin v.values.flatten), limit zmax (Writer.npMax v.values.flatten) with
      | .ok a, .ok b =>
        match rowOf v.values yind, columnOf v.values xind with
        | .ok r, .ok c => .ok (.image i.waveform (a, b) z r c)
        | .error e, _ => .error e
        | _, .error e => .error e
      | .error e, _ => .error e
      | _, .error e => .error e

/-- `im_line` (inspect.py 495-539) outside a notebook. -/
def imLine (i : Inspector K) (z : Name) (zmin zmax : Option K) (xind yind : Option Nat) : Except PyErr (Drawn K) :=
  if z = [] then .error .valueError else plotImLine i z zmin zmin xind yind

/-! ## Histograms -/

/-- `plt.hist(data, range=(vmin, vmax))`: the samples that are counted are those inside the range, ends included.
`inspect.py:287-317`, `compare.py:218-290`. -/
def counted (r : K × K) (data : List K) : List K := data.filter fun x => decide (r.1 ≤ x) && decide (x ≤ r.2)

/-- `waveform_hist` (inspect.py 287-317): the samples counted. -/
def waveformHist (i : Inspector K) (vmin vmax : Option K) : Except PyErr (List K) :=
  match gridRange i.waveform with
  | .error e => .error e
  | .ok r => .ok (counted (widen (orDefault vmin r.1, orDefault vmax r.2)) i.waveform.flatten)

/-! ## The waveforms of a product and their difference -/

/-- `waveform_scaling.reshape(shape + (1,)) * waveform_counts` (inspect.py 119-123): every record times its factor. -/
def scaled (factors : List K) (counts : Grid K) : Grid K := List.zipWith (fun f r => r.map (f * ·)) factors counts

/-- Shape of an array given by rows; the rows of a netCDF variable have equal length.  Compared in `compare.py:75`. -/
def shape (g : Grid K) : List Nat := g.map List.length

/-- `L1bProductComparator.__init__` (compare.py 73-82): the difference of the waveforms and its range. -/
def compare (a b : Grid K) : Except PyErr (Grid K × (K × K)) :=
  if shape a ≠ shape b then .error .valueError
  else
    let delta := List.zipWith (List.zipWith (· - ·)) a b
    match gridRange delta with
    | .error e => .error e
    | .ok r => .ok (delta, r)

/-- `waveforms_hist` (compare.py 218-259): the samples of the two products that are counted. -/
def waveformsHist (a b : Grid K) (vmin vmax : Option K) : Except PyErr (List K × List K) :=
  match compare a b with
  | .error e => .error e
  | .ok (_, r) =>
    let range := widen (orDefault vmin r.1, orDefault vmax r.2)
    .ok (counted range a.flatten, counted range b.flatten)

/-- `waveforms_delta_hist` (compare.py 261-290). -/
def waveformsDeltaHist (a b : Grid K) (vmin vmax : Option K) : Except PyErr (List K) :=
  match compare a b with
  | .error e => .error e
  | .ok (delta, r) => .ok (counted (widen (orDefault vmin r.1, orDefault vmax r.2)) delta.flatten)

/-- `waveforms_scatter` and `waveforms_hexbin` (compare.py 292-334): both axes cover this range. -/
def scatterAxes (a b : Grid K) (vmin vmax : Option K) : Except PyErr (K × K) :=
  match compare a b with
  | .error e => .error e
  | .ok (_, r) => .ok (widen (orDefault vmin r.1, orDefault vmax r.2))

/-! ## What an inspector shows of a record written by the extended L1B writer -/

/-- The variables of a record that an inspector of an L1B product reads (inspect.py 119-123), with the values the extended
writer stores (l1b_writer.py 857, 915, 926): the waveform divided by its maximum in `i2q2_meas_ku_l1b_echo_sar_ku` and the
sigma0 scaling factor in `scale_factor_ku_l1b_echo_sar_ku`.  The factor that undoes the division is in a third variable.
The resolution of the stored values is left out.  `none`: the writer raises an exception or stores NaN. -/
def written (sigma0 : K) (waveform : List K) : Option (K × List K) :=
  match Writer.scaleWaveform waveform with
  | none => none
  | some (cells, _) => (cells.mapM id).map fun c => (sigma0, c)

/-- The rows of `waveform` of an inspector for records (sigma0 factor, multilooked waveform). -/
def inspected (records : List (K × List K)) : Option (Grid K) :=
  (records.mapM fun r => written r.1 r.2).map fun l => scaled (l.map Prod.fst) (l.map Prod.snd)

end Dedop.Figures
