import Verif.Model.RosMsg

/-!
`ros/io.py`: reading and writing rosbag files, netCDF export and the cache of `load_dataset`.
-/

noncomputable section

namespace RBM.Ros

open RBM

/-! ### rosbag (external) -/

/-- `nav_msgs/Odometry` without the covariances. -/
structure Odometry where
  header : Header
  childFrameId : Option String
  pose : PoseMsg
  twist : TwistMsg

/-- A recorded message: one of the two supported types, or some other type, of which only the name matters. -/
inductive Msg
  | transform (m : TransformStamped)
  | odometry (m : Odometry)
  | other (type : String)

/-- One record of a bag: topic, message and time of recording. -/
structure Record where
  topic : String
  msg : Msg
  time : ℕ

/-- A bag: the connections (topic and type, in order of creation) and the records in the order in which they were written. -/
structure Bag where
  conns : List (String × String)
  records : List Record

/-- A bag that was just opened with mode `"w"`. -/
def Bag.empty : Bag := ⟨[], []⟩

/-- `bag.write(topic, msg)` for a `TransformStamped` (rosbag, external) at wall clock time `now`: seconds of the stamp are stored in 32 bits. The
connection of a topic is created by its first message. -/
def Bag.write (b : Bag) (topic : String) (msg : TransformStamped) (now : ℕ) : Bag × Res Unit :=
  if 4294967296 * 1000000000 ≤ msg.header.stamp then (b, .error .serializationError)
  else (⟨if (b.conns.map Prod.fst).contains topic then b.conns else b.conns ++ [(topic, "geometry_msgs/TransformStamped")],
         b.records ++ [⟨topic, .transform msg, now⟩]⟩, .ok ())

/-- `bag.read_messages(topics=topic)` (rosbag, external): in order of recording time, ties in order of writing. -/
def Bag.readMessages (b : Bag) (topic : String) : List Msg :=
  ((b.records.filter fun r => decide (r.topic = topic)).mergeSort fun r r' => decide (r.time ≤ r'.time)).map Record.msg

/-- io.py:31-34 `_get_msg_type`: the type of the first connection of the topic. -/
def Bag.msgType (b : Bag) (topic : String) : Res String :=
  match b.conns.lookup topic with
  | some t => .ok t
  | none => .error .keyError

/-- io.py:80-82 `get_topics_and_types` inside the context manager: `get_type_and_topic_info()` (rosbag, external) has one entry for each topic,
with the type of its first connection. -/
def Bag.topicsAndTypes (b : Bag) : List (String × String) := b.conns.eraseDupsBy fun a c => decide (a.1 = c.1)

/-! ### RosbagReader -/

/-- A path: folder and file name. -/
structure Path where
  folder : List String
  name : String
  deriving DecidableEq

/-- io.py:7-29: `_bag` is `None` outside the context manager. -/
structure Reader where
  bagFile : Path
  bag : Option Bag

/-- io.py:64-82 `get_topics_and_types`. -/
def Reader.getTopicsAndTypes (rd : Reader) : Res (List (String × String)) :=
  match rd.bag with
  | none => .error .runtimeError
  | some b => .ok b.topicsAndTypes

/-- io.py:84-156: what `load_messages` returns. -/
structure Motion where
  timestamps : List ℝ
  position : List (List ℝ)
  orientation : List (List ℝ)
  velocity : Option (List (List ℝ) × List (List ℝ))

/-- io.py:118-125: one row for an odometry message; both supported types have a header. -/
def odometryRow : Msg → Res (List ℝ)
  | .odometry m => .ok ([toSec m.header.stamp] ++ unpackPoint m.pose.position ++ unpackQuaternion m.pose.orientation ++
      unpackVector m.twist.linear ++ unpackVector m.twist.angular)
  | _ => .error .attributeError

/-- io.py:138-143: one row for a transform message. -/
def transformRow : Msg → Res (List ℝ)
  | .transform m => .ok ([toSec m.header.stamp] ++ unpackPoint m.transform.translation ++ unpackQuaternion m.transform.rotation)
  | _ => .error .attributeError

/-- `arr[:, k]` of an array of rows; without rows the array is one-dimensional. -/
def col (arr : List (List ℝ)) (k : ℕ) : Res (List ℝ) :=
  if arr = [] then .error .indexError else .ok (arr.map fun r => r.getD k 0)

/-- `arr[:, a:b]`. -/
def cols (arr : List (List ℝ)) (a b : ℕ) : List (List ℝ) := arr.map fun r => (r.take b).drop a

/-- io.py:84-156 `load_messages`. -/
def Reader.loadMessages (rd : Reader) (topic : String) : Res Motion :=
  match rd.bag with
  | none => .error .runtimeError
  | some b => do
    let type ← b.msgType topic
    if type = "nav_msgs/Odometry" then
      let arr ← (b.readMessages topic).mapM odometryRow
      let ts ← col arr 0
      return ⟨ts, cols arr 1 4, cols arr 4 8, some (cols arr 8 11, cols arr 11 14)⟩
    else if type = "geometry_msgs/TransformStamped" then
      let arr ← (b.readMessages topic).mapM transformRow
      let ts ← col arr 0
      return ⟨ts, cols arr 1 4, cols arr 4 8, none⟩
    else throw .valueError

/-- `np.around`: to the nearest integer, halves to the even one. -/
def rint (x : ℝ) : ℤ :=
  if Int.fract x < 1 / 2 then ⌊x⌋ else if 1 / 2 < Int.fract x then ⌊x⌋ + 1 else if Even ⌊x⌋ then ⌊x⌋ else ⌊x⌋ + 1

/-- The dataset of io.py:194-226: times in nanoseconds, values may be NaN (`none`). The coordinates are constants. -/
structure Dataset where
  time : List ℤ
  position : List (List (Option ℝ))
  orientation : List (List (Option ℝ))
  velocity : Option (List (List (Option ℝ)) × List (List (Option ℝ)))

def someRows (a : List (List ℝ)) : List (List (Option ℝ)) := a.map fun r => r.map some

/-- io.py:192-226 `load_dataset(topic, cache=False)`. `pd.to_datetime(..., unit="s")` (external) takes the nearest nanosecond. -/
def Reader.loadDatasetUncached (rd : Reader) (topic : String) : Res Dataset := do
  let m ← rd.loadMessages topic
  return ⟨m.timestamps.map fun t => rint (t * 1000000000), someRows m.position, someRows m.orientation,
    m.velocity.map fun v => (someRows v.1, someRows v.2)⟩

/-! ### netCDF (xarray, external) with the encoding of io.py:48-63 -/

/-- io.py:54: `scale_factor`. -/
def scale : ℝ := 1 / 10000

/-- `np.iinfo("int32").min`, io.py:55: `_FillValue`. -/
def intMin : ℤ := -2147483648
/-- `np.iinfo("int32").max`. -/
def intMax : ℤ := 2147483647

/-- Encoding of one value: divided by `scale_factor`, NaN replaced by the fill value, rounded, cast to `int32`. What the cast makes of values out of
range is not specified by C: `cast`. -/
def encode (cast : ℤ → ℤ) : Option ℝ → ℤ
  | none => intMin
  | some x => let k := rint (x / scale); if intMin ≤ k ∧ k ≤ intMax then k else cast k

/-- Decoding of one value: fill values are NaN. -/
def decode (k : ℤ) : Option ℝ := if k = intMin then none else some (k * scale)

/-- A netCDF file. The time coordinate is stored exactly (simplification: xarray stores seconds since the first date as float if they are not
integers). -/
structure NcFile where
  time : List ℤ
  position : List (List ℤ)
  orientation : List (List ℤ)
  velocity : Option (List (List ℤ) × List (List ℤ))

/-- io.py:48-63 `_write_netcdf`: all data variables get the same encoding. -/
def writeNetcdf (cast : ℤ → ℤ) (ds : Dataset) : NcFile :=
  let e (a : List (List (Option ℝ))) := a.map fun r => r.map (encode cast)
  ⟨ds.time, e ds.position, e ds.orientation, ds.velocity.map fun v => (e v.1, e v.2)⟩

/-- `xr.open_dataset`. -/
def openDataset (f : NcFile) : Dataset :=
  let d (a : List (List ℤ)) := a.map fun r => r.map decode
  ⟨f.time, d f.position, d f.orientation, f.velocity.map fun v => (d v.1, d v.2)⟩

/-! ### Files -/

/-- The netCDF files on disk. -/
abbrev Files := Path → Option NcFile

/-- `Path.stem`: without the last suffix (if there is one and it is not the whole name). -/
def stem (name : String) : String :=
  let l := name.toList
  let suffix := l.reverse.takeWhile fun c => decide (c ≠ '.')
  let i := l.length - suffix.length - 1
  if suffix.length < l.length ∧ 0 < i ∧ suffix ≠ [] then String.ofList (l.take i) else name

/-- The `output_file` argument of `export`: `None`, a `Path` or a string. -/
inductive OutFile
  | none
  | path (p : Path)
  | str (s : String)

/-- io.py:36-46 `_get_filename` (creating folders is assumed to succeed). Strings have no `parent`. -/
def Reader.getFilename (rd : Reader) : OutFile → Res Path
  | .none => .ok ⟨rd.bagFile.folder, stem rd.bagFile.name ++ ".nc"⟩
  | .path p => .ok p
  | .str _ => .error .attributeError

/-- io.py:228-241 `export`. -/
def Reader.exportNc (rd : Reader) (cast : ℤ → ℤ) (fs : Files) (topic : String) (out : OutFile) : Files × Res Unit :=
  match rd.loadDatasetUncached topic with
  | .error e => (fs, .error e)
  | .ok ds =>
    match rd.getFilename out with
    | .error e => (fs, .error e)
    | .ok p => (Function.update fs p (some (writeNetcdf cast ds)), .ok ())

/-- `topic.replace("/", "_")`. -/
def cacheName (topic : String) : String := String.ofList (topic.toList.map fun c => if c = '/' then '_' else c)

/-- io.py:181-185: where the cache of a topic is. -/
def Reader.cachePath (rd : Reader) (topic : String) : Path := ⟨rd.bagFile.folder ++ ["cache"], cacheName topic ++ ".nc"⟩

/-- io.py:158-226 `load_dataset`. -/
def Reader.loadDataset (rd : Reader) (cast : ℤ → ℤ) (fs : Files) (topic : String) (cache : Bool := false) : Files × Res Dataset :=
  if cache then
    match fs (rd.cachePath topic) with
    | some f => (fs, .ok (openDataset f))
    | none =>
      match rd.exportNc cast fs topic (.path (rd.cachePath topic)) with
      | (fs', .error e) => (fs', .error e)
      | (fs', .ok ()) =>
        match fs' (rd.cachePath topic) with
        | some f => (fs', .ok (openDataset f))
        | none => (fs', .error .keyError)
  else (fs, rd.loadDatasetUncached topic)

/-! ### RosbagWriter -/

/-- io.py:315-317: the loop of `write_transform_stamped`; each row comes with the wall clock at its writing. Outside of the context manager `_bag` is
`None`. -/
def writeRows (topic frame childFrame : String) : Option Bag → List (ℝ × List ℝ × List ℝ × ℕ) → Option Bag × Res Unit
  | b, [] => (b, .ok ())
  | b, (ts, t, r, now) :: rows =>
    match makeTransformMsg t r (some frame) (some childFrame) ts with
    | .error e => (b, .error e)
    | .ok msg =>
      match b with
      | none => (none, .error .attributeError)
      | some bag =>
        match bag.write topic msg now with
        | (bag', .error e) => (some bag', .error e)
        | (bag', .ok ()) => writeRows topic frame childFrame (some bag') rows

/-- Row `k` of a two-dimensional array with `m` columns. -/
def ndRow (a : ND ℝ) (m k : ℕ) : List ℝ := (List.range m).map fun i => a.get [k, i]

/-- io.py:268-317 `write_transform_stamped`; `clock k` is the wall clock when the `k`-th message of the call is written. -/
def writeTransformStamped (bag : Option Bag) (clock : ℕ → ℕ) (timestamps translation rotation : ND ℝ) (topic frame childFrame : String) :
    Option Bag × Res Unit :=
  match timestamps.shape with
  | [n] =>
    if translation.shape ≠ [n, 3] then (bag, .error .valueError)
    else if rotation.shape ≠ [n, 4] then (bag, .error .valueError)
    else writeRows topic frame childFrame bag
      ((List.range n).map fun k => (timestamps.get [k], ndRow translation 3 k, ndRow rotation 4 k, clock k))
  | _ => (bag, .error .valueError)

/-- A variable or coordinate of a dataset; `datetime64` values are in nanoseconds. -/
structure DsVar where
  data : ND ℝ
  datetime : Bool

/-- io.py:319-369 `write_transform_stamped_dataset`. -/
def writeTransformStampedDataset (bag : Option Bag) (clock : ℕ → ℕ) (ds : String → Option DsVar) (topic frame childFrame : String)
    (timestamps : String := "time") (translation : String := "position") (rotation : String := "orientation") : Option Bag × Res Unit :=
  match ds timestamps, ds translation, ds rotation with
  | some ts, some t, some r =>
    writeTransformStamped bag clock (if ts.datetime then ts.data.map fun τ => τ / 1000000000 else ts.data) t.data r.data topic frame childFrame
  | _, _, _ => (bag, .error .keyError)

end RBM.Ros
