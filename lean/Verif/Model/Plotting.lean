import Verif.Model.Plumbing

/-!
Plotting (plotting.py). Drawing is matplotlib (external): the model records what is handed over and the limits of the axes.
-/

noncomputable section

namespace RBM.Plot

/-- The limits of the three axes. -/
structure Lims where
  x : ℝ × ℝ
  y : ℝ × ℝ
  z : ℝ × ℝ

/-- `Arrow3D` (plotting.py:10-31). -/
structure Arrow where
  start : Vec
  stop : Vec
  color : String

/-- 3-d axes: limits, whether autoscaling is on (setting limits by hand switches it off, matplotlib), the points seen by autoscaling, arrows, lines, and
the (base, vector) pairs of the quiver plots with their color and length. The flag of the three axes is the same whenever it is used. -/
structure Axes3 where
  lims : Lims
  auto : Bool
  data : List Vec
  arrows : List Arrow
  lines : List (List Vec)
  quivers : List (Option String × ℝ × List (Vec × Vec))

/-- matplotlib (external): the limits chosen by autoscaling for all the plotted points, and the limits chosen instead of an empty range. -/
structure Mpl where
  scale : List Vec → Lims
  expand : ℝ → ℝ × ℝ

/-- `set_xlim3d` and the like. -/
def setLim (m : Mpl) (p : ℝ × ℝ) : ℝ × ℝ := if p.1 = p.2 then m.expand p.1 else p

/-- plotting.py:88-109 `_set_axes_equal`. -/
def setAxesEqual (m : Mpl) (a : Axes3) : Axes3 :=
  let l := a.lims
  let radius := 1 / 2 * max (max |l.x.2 - l.x.1| |l.y.2 - l.y.1|) |l.z.2 - l.z.1|
  let around (p : ℝ × ℝ) : ℝ × ℝ := setLim m ((p.1 + p.2) / 2 - radius, (p.1 + p.2) / 2 + radius)
  { a with lims := ⟨around l.x, around l.y, around l.z⟩, auto := false }

/-- A list of three numbers as array. -/
def listArr (v : Vec) : ND ℝ := ⟨[3], fun idx => v (Fin.ofNat 3 (idx.getD 0 0))⟩

/-- One point of plotting.py:43-47. -/
def worldPoint (sq : SquadFn) (x : XrOps) (s : State) (frame : ℕ) (world : Option FrameRef) (p : Vec) : Res (ND ℝ) :=
  match world with
  | none => .ok (listArr p)
  | some w => match topPoints sq x s (.nd (listArr p)) w { outof := some (.byObj frame) } with
    | .error e => .error e
    | .ok (.single v) => .ok v
    | .ok _ => .error .typeError    -- not reached: a plain array without timestamps

/-- The numbers `v[0], v[1], v[2]`. -/
def coords3 (v : ND ℝ) : Vec := fun k => v.get [k.val]

/-- plotting.py:70-73 and the like. -/
def growLim (old : ℝ × ℝ) (a b c d : ℝ) : ℝ × ℝ := (min old.1 (min a (min b (min c d))), max old.2 (max a (max b (max c d))))

/-- plotting.py:34-85 `_add_frame`. If the points move with time, `o[0]` is not a number: there are not enough of them for the arrows (IndexError), or
their minimum cannot be taken (ValueError, after three arrows that cannot be drawn have been added, which is not modelled). Note the last two lines:
the limits of the y axis are set twice. -/
def addFrame (m : Mpl) (sq : SquadFn) (x : XrOps) (s : State) (ax : Axes3) (frame : ℕ) (world : Option FrameRef) (len : ℝ) : Axes3 × Res (List Arrow) :=
  match worldPoint sq x s frame world ![0, 0, 0], worldPoint sq x s frame world ![len, 0, 0],
      worldPoint sq x s frame world ![0, len, 0], worldPoint sq x s frame world ![0, 0, len] with
  | .ok o, .ok px, .ok py, .ok pz =>
    if o.ndim = 1 ∧ px.ndim = 1 ∧ py.ndim = 1 ∧ pz.ndim = 1 then
      let o := coords3 o
      let px := coords3 px
      let py := coords3 py
      let pz := coords3 pz
      let arrows : List Arrow := [⟨o, px, "r"⟩, ⟨o, py, "g"⟩, ⟨o, pz, "b"⟩]
      let l := ax.lims
      let xl := growLim l.x (o 0) (px 0) (py 0) (pz 0)
      let _yl := growLim l.y (o 1) (px 1) (py 1) (pz 1)
      let zl := growLim l.z (o 2) (px 2) (py 2) (pz 2)
      ({ ax with lims := ⟨setLim m xl, setLim m zl, l.z⟩, auto := false, arrows := ax.arrows ++ arrows }, .ok arrows)
    else if o.shape.headD 0 < 3 then (ax, .error .indexError)
    else (ax, .error .valueError)
  | .error e, _, _, _ => (ax, .error e)
  | _, .error e, _, _ => (ax, .error e)
  | _, _, .error e, _ => (ax, .error e)
  | _, _, _, .error e => (ax, .error e)

/-- plotting.py:112-155 `plot_reference_frame` on given axes. -/
def plotReferenceFrame (m : Mpl) (sq : SquadFn) (x : XrOps) (s : State) (ax : Axes3) (frame : FrameRef) (world : Option FrameRef := none) (len : ℝ := 1) :
    Axes3 × Res (List Arrow) :=
  match s.resolve frame with
  | .error e => (ax, .error e)
  | .ok f => match s.data f with
    | none => (ax, .error .attributeError)
    | some d =>
      if d.timestamps.isSome then (ax, .error .notImplementedError)
      else match addFrame m sq x s ax f world len with
        | (ax, .error e) => (ax, .error e)
        | (ax, .ok arrows) => (setAxesEqual m ax, .ok arrows)

/-- plotting.py:187-191, 277-281: the rows of an array of shape (3,) or (N, 3). -/
def rows3 (arr : ND ℝ) : Res (List Vec) :=
  match arr.shape with
  | [] => .error .indexError
  | [k] => if k ≠ 3 then .error .valueError else .ok [fun i => arr.get [i.val]]
  | [n, k] => if k ≠ 3 then .error .valueError else .ok ((List.range n).map fun r => fun i => arr.get [r, i.val])
  | _ => .error .valueError

/-- Autoscaling after new data. -/
def autoscale (m : Mpl) (ax : Axes3) (pts : List Vec) : Axes3 :=
  { ax with data := ax.data ++ pts, lims := if ax.auto then m.scale (ax.data ++ pts) else ax.lims }

/-- plotting.py:158-197 `plot_points` on given axes. -/
def plotPoints (m : Mpl) (ax : Axes3) (arr : ND ℝ) : Axes3 × Res (List Vec) :=
  match rows3 arr with
  | .error e => (ax, .error e)
  | .ok pts => (setAxesEqual m (autoscale m { ax with lines := ax.lines ++ [pts] } pts), .ok pts)

/-- The shape after `arr[np.newaxis, :]` for one dimensional arrays. -/
def shape2 : List ℕ → List ℕ
  | [k] => [1, k]
  | sh => sh

/-- plotting.py:283-290: base points. -/
def baseRows (base : Option (ND ℝ)) (arr : ND ℝ) (n : ℕ) : Res (List Vec) :=
  match base with
  | none => .ok (List.replicate n 0)
  | some b => if shape2 b.shape ≠ shape2 arr.shape then .error .valueError else rows3 b

/-- plotting.py:242-304 `plot_vectors` on given axes; `length` and `color` are passed to `quiver`, which plots arrows from `base` to `base + length * vector`
(matplotlib). -/
def plotVectors (m : Mpl) (ax : Axes3) (arr : ND ℝ) (base : Option (ND ℝ) := none) (color : Option String := none) (length : ℝ := 1) :
    Axes3 × Res (List (Vec × Vec)) :=
  match rows3 arr with
  | .error e => (ax, .error e)
  | .ok vs => match baseRows base arr vs.length with
    | .error e => (ax, .error e)
    | .ok bs =>
      let arrows := bs.zip vs
      (setAxesEqual m (autoscale m { ax with quivers := ax.quivers ++ [(color, length, arrows)] }
        (arrows.flatMap fun p => [p.1, p.1 + length • p.2])), .ok arrows)

/-- plotting.py:200-239 `plot_quaternions` on given axes. -/
def plotQuaternions (m : Mpl) (ax : Axes3) (arr : ND ℝ) (base : Option (ND ℝ) := none) : Axes3 × Res (List (List (Vec × Vec))) :=
  match rotateVectorsF arr (listArr ![1, 0, 0]) (oneToOne := false), rotateVectorsF arr (listArr ![0, 1, 0]) (oneToOne := false),
      rotateVectorsF arr (listArr ![0, 0, 1]) (oneToOne := false) with
  | .ok vx, .ok vy, .ok vz =>
    match plotVectors m ax vx base (some "r") (1 / 2) with
    | (ax, .error e) => (ax, .error e)
    | (ax, .ok lx) => match plotVectors m ax vy base (some "g") (1 / 2) with
      | (ax, .error e) => (ax, .error e)
      | (ax, .ok ly) => match plotVectors m ax vz base (some "b") (1 / 2) with
        | (ax, .error e) => (ax, .error e)
        | (ax, .ok lz) => (ax, .ok [lx, ly, lz])
  | .error e, _, _ => (ax, .error e)
  | _, .error e, _ => (ax, .error e)
  | _, _, .error e => (ax, .error e)

end RBM.Plot
