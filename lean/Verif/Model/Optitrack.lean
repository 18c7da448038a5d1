import Verif.Model.Utils
import Verif.Model.Lookups
import Verif.Model.RosIo

/-!
`load_optitrack` (io.py). Reading the CSV file is pandas (external): the model starts from the cells of the header row and the columns of numbers.
-/

noncomputable section

namespace RBM

/-- A column of the body of the file with its four header cells (io.py:37-39): type, name, motion type and axis. -/
structure OptiColumn where
  kind : String
  body : String
  motion : String
  axis : String
  data : List ℝ

/-- The file: the cells of the first row, the column "Time (Seconds)" and the other columns. -/
structure OptiFile where
  header : List String
  seconds : List ℝ
  columns : List OptiColumn

/-- io.py:34 `zip(header[0][0::2], header[0][1::2])`. -/
def headerPairs : List String → List (String × String)
  | k :: v :: rest => (k, v) :: headerPairs rest
  | _ => []

/-- io.py:34: the dictionary of metadata. -/
def optiMeta (header : List String) : List (String × String) := (headerPairs header).foldl (fun d kv => dictSet d kv.1 kv.2) []

/-- One letter of io.py:68-73. -/
def orderLetter (c : Char) : Char := if c = 'X' then 'r' else if c = 'Y' then 'p' else if c = 'Z' then 'y' else c

/-- Columns of numbers as a two dimensional array with `n` rows. -/
def colArray (n : ℕ) (cols : List (List ℝ)) : ND ℝ := ⟨[n, cols.length], fun idx => (cols.getD (idx.getD 1 0) []).getD (idx.getD 0 0) 0⟩

/-- One entry of `data_dict` (a DataFrame; io.py:76-84). -/
structure OptiBody where
  position : ND ℝ
  positionAxes : List String
  orientation : ND ℝ
  timestamps : List ℤ

/-- io.py:48, 53-56: the columns of one rigid body. -/
def bodyColumns (f : OptiFile) (name : String) : List OptiColumn := f.columns.filter fun c => decide (c.kind = "Rigid Body" ∧ c.body = name)

/-- The columns of one motion type; `KeyError` if there are none. -/
def motionColumns (cols : List OptiColumn) (motion : String) : Res (List OptiColumn) :=
  let l := cols.filter fun c => decide (c.motion = motion)
  if l = [] then .error .keyError else .ok l

/-- io.py:65-84 for one rigid body. -/
def loadBody (mt : List (String × String)) (f : OptiFile) (ts : List ℤ) (name : String) : Res (String × OptiBody) := do
  let rot ← motionColumns (bodyColumns f name) "Rotation"
  let rpy := (colArray f.seconds.length (rot.map OptiColumn.data)).map fun x => x * Real.pi / 180
  let order := ((dictGet mt "Rotation Type").getD "XYZ").toList.map orderLetter
  let q ← fromEuler { rpy := some rpy, order := order }
  let pos ← motionColumns (bodyColumns f name) "Position"
  let scale : ℝ := if dictGet mt "Length Units" = some "Centimeters" then 100 else 1
  return (name, ⟨(colArray f.seconds.length (pos.map OptiColumn.data)).map fun x => x / scale, pos.map fun c => String.ofList (c.axis.toList.map Char.toLower), q, ts⟩)

/-- io.py:53-56: names of the rigid bodies, as sorted by `groupby`. -/
def bodyNames (f : OptiFile) : List String :=
  (((f.columns.filter fun c => decide (c.kind = "Rigid Body")).map OptiColumn.body).dedup).mergeSort fun a b => decide (a ≤ b)

/-- Returned value for the three formats. -/
inductive OptiRet
  | numpy (d : List (String × ND ℝ × ND ℝ × List ℤ))
  | pandas (d : List (String × OptiBody))
  | xarray (d : List (String × DArr × DArr))

/-- io.py:97-110: the variables "position" and "orientation" of the dataset. -/
def OptiBody.toDataset (b : OptiBody) : DArr × DArr :=
  let time : String × Coord := ("time", ⟨["time"], .num (ND.vec1 (b.timestamps.map fun t : ℤ => (t : ℝ)))⟩)
  (⟨b.position, ⟨[time, ("cartesian_axis", labelCoord "cartesian_axis" b.positionAxes)], ["time", "cartesian_axis"], some "position", []⟩⟩,
   ⟨b.orientation, ⟨[time, ("quaternion_axis", labelCoord "quaternion_axis" ["w", "x", "y", "z"])], ["time", "quaternion_axis"], some "orientation", []⟩⟩)

/-- io.py:6-112 `load_optitrack`. `parseTime` is `pd.to_datetime` with the format of the file, in nanoseconds (external); `pd.to_timedelta` rounds to
nanoseconds. -/
def loadOptitrack (parseTime : String → Option ℤ) (f : OptiFile) (format : String) : Res OptiRet := do
  let mt := optiMeta f.header
  let start ← match dictGet mt "Capture Start Time" with
    | none => .error PyErr.keyError
    | some st => match parseTime st with
      | none => .error PyErr.valueError
      | some t => .ok t
  let ts := f.seconds.map fun x => start + Ros.rint (x * 1000000000)
  if bodyNames f = [] then throw .keyError
  if dictGet mt "Length Units" = some "Centimeters" ∧
      ∃ n ∈ bodyNames f, ¬ ∃ c ∈ bodyColumns f n, c.motion = "Position" then throw .keyError
  let d ← (bodyNames f).mapM (loadBody mt f ts)
  if format = "pandas" then return .pandas d
  else if format = "numpy" then return .numpy (d.map fun b => (b.1, b.2.position, b.2.orientation, b.2.timestamps))
  else if format = "xarray" then return .xarray (d.map fun b => (b.1, b.2.toDataset))
  else throw .valueError

end RBM
