import Verif.Props.Rosbag

/-!
C60: cached datasets and exports.
-/

namespace RBM.Props

open RBM RBM.Ros RBM.Spec

theorem load_cached {rd : Reader} {cast : ℤ → ℤ} {fs : Files} {topic : String} {f : NcFile} (h : fs (rd.cachePath topic) = some f) :
    rd.loadDataset cast fs topic true = (fs, .ok (openDataset f)) := by
  simp only [Reader.loadDataset, if_true, h]

theorem load_uncached {rd : Reader} {cast : ℤ → ℤ} {fs : Files} {topic : String} (h : fs (rd.cachePath topic) = none) :
    rd.loadDataset cast fs topic true = match rd.loadDatasetUncached topic with
      | .error e => (fs, .error e)
      | .ok ds => (Function.update fs (rd.cachePath topic) (some (writeNetcdf cast ds)), .ok (openDataset (writeNetcdf cast ds))) := by
  simp only [Reader.loadDataset, if_true, h, Reader.exportNc, Reader.getFilename]
  cases hx : rd.loadDatasetUncached topic with
  | error e => rfl
  | ok ds => simp

theorem load_fresh {rd : Reader} (cast : ℤ → ℤ) {topic : String} {ds : Dataset} (h : rd.loadDatasetUncached topic = .ok ds) :
    ∃ fs, rd.loadDataset cast (fun _ => none) topic true = (fs, .ok (openDataset (writeNetcdf cast ds))) := by
  rw [load_uncached rfl, h]
  exact ⟨_, rfl⟩

/-- What the cache folder holds: for topics without underscore, what the bag says. -/
def CacheInv (cast : ℤ → ℤ) (path : Path) (bag : Bag) (fs : Files) : Prop :=
  ∀ topic f, '_' ∉ topic.toList → fs ((Reader.mk path none).cachePath topic) = some f →
    ∃ ds, (Reader.mk path (some bag)).loadDatasetUncached topic = .ok ds ∧ f = writeNetcdf cast ds

theorem cachePath_bag (path : Path) (a b : Option Bag) (topic : String) : (Reader.mk path a).cachePath topic = (Reader.mk path b).cachePath topic := rfl

theorem uncached_of_inside {path : Path} {bag : Bag} {inside : Bool} {topic : String} {ds : Dataset}
    (h : (Reader.mk path (if inside then some bag else none)).loadDatasetUncached topic = .ok ds) :
    (Reader.mk path (some bag)).loadDatasetUncached topic = .ok ds := by
  cases inside with
  | true => simpa using h
  | false =>
    have e : (Reader.mk path none).loadDatasetUncached topic = .error .runtimeError := rfl
    rw [if_neg (by simp)] at h
    rw [e] at h
    exact absurd h (by simp)

theorem append_ne_self (l : List String) : l ≠ l ++ ["cache"] := by
  intro h
  have := congrArg List.length h
  simp at this

theorem cacheInv_update {cast : ℤ → ℤ} {path p : Path} {bag : Bag} {fs : Files} (h : CacheInv cast path bag fs) (f : Option NcFile)
    (hp : p.folder ≠ path.folder ++ ["cache"]) : CacheInv cast path bag (Function.update fs p f) := by
  intro topic g ht hg
  refine h topic g ht ?_
  rw [Function.update_of_ne] at hg
  · exact hg
  · intro e
    apply hp
    rw [← e]
    rfl

theorem cacheInv_step {cast : ℤ → ℤ} {path : Path} {bag : Bag} {fs : Files} (h : CacheInv cast path bag fs) {c : IoCall} (hc : c.Tame path) :
    CacheInv cast path bag (ioStep cast path bag fs c) := by
  cases c with
  | load inside topic cache =>
    simp only [ioStep]
    cases cache with
    | false => simpa [Reader.loadDataset] using h
    | true =>
      cases hf : fs ((Reader.mk path (if inside then some bag else none)).cachePath topic) with
      | some f => rw [load_cached hf]; exact h
      | none =>
        rw [load_uncached hf]
        cases hx : (Reader.mk path (if inside then some bag else none)).loadDatasetUncached topic with
        | error e => exact h
        | ok ds =>
          intro topic' g ht hg
          simp only at hg
          by_cases he : topic' = topic
          · subst he
            rw [cachePath_bag path none (if inside then some bag else none)] at hg
            rw [Function.update_self] at hg
            exact ⟨ds, uncached_of_inside hx, by simpa [eq_comm] using hg⟩
          · refine h topic' g ht ?_
            rw [Function.update_of_ne] at hg
            · exact hg
            · intro e
              exact he (C54_names_partial _ ht hc e)
  | exportTo inside topic out =>
    simp only [ioStep, Reader.exportNc]
    cases hx : (Reader.mk path (if inside then some bag else none)).loadDatasetUncached topic with
    | error e => exact h
    | ok ds =>
      cases out with
      | none => exact cacheInv_update h _ (append_ne_self _)
      | path p => exact cacheInv_update h _ hc
      | str s => exact h

/-- With one bag per folder whose topics contain no underscore, cached datasets are right whatever was called before: every `load_dataset(topic,
cache=True)` gives what `load_dataset(topic)` gives, up to the rounding of netCDF, and raises what that raises. -/
theorem C60_history_partial (cast : ℤ → ℤ) (path : Path) (bag : Bag) (fs₀ : Files) (h₀ : ∀ p, p.folder = path.folder ++ ["cache"] → fs₀ p = none)
    (calls : List IoCall) (ht : ∀ c ∈ calls, c.Tame path) (topic : String) (htopic : '_' ∉ topic.toList) :
    ((Reader.mk path (some bag)).loadDataset cast (calls.foldl (ioStep cast path bag) fs₀) topic true).2 =
      match (Reader.mk path (some bag)).loadDatasetUncached topic with
      | .error e => .error e
      | .ok ds => .ok (openDataset (writeNetcdf cast ds)) := by
  have inv : CacheInv cast path bag (calls.foldl (ioStep cast path bag) fs₀) := by
    have h1 : CacheInv cast path bag fs₀ := fun topic f _ hf => by rw [h₀ _ rfl] at hf; exact absurd hf (by simp)
    clear h₀
    induction calls generalizing fs₀ with
    | nil => exact h1
    | cons c calls ih => exact ih _ (fun c' hc' => ht c' (by simp [hc'])) (cacheInv_step h1 (ht c (by simp)))
  cases hf : (calls.foldl (ioStep cast path bag) fs₀) ((Reader.mk path (some bag)).cachePath topic) with
  | some f =>
    rw [load_cached hf]
    obtain ⟨ds, h1, rfl⟩ := inv topic f htopic hf
    rw [h1]
  | none =>
    rw [load_uncached hf]
    cases (Reader.mk path (some bag)).loadDatasetUncached topic <;> rfl

/-- Together with C54: every value of the cached dataset is within half the scale factor of the message. -/
theorem C60_values_partial (cast : ℤ → ℤ) (path : Path) (bag : Bag) (fs₀ : Files) (h₀ : ∀ p, p.folder = path.folder ++ ["cache"] → fs₀ p = none)
    (calls : List IoCall) (ht : ∀ c ∈ calls, c.Tame path) (topic : String) (htopic : '_' ∉ topic.toList) {ds : Dataset}
    (hds : (Reader.mk path (some bag)).loadDatasetUncached topic = .ok ds) (hb : DatasetBelow 214748.36475 ds) :
    ∃ ds', ((Reader.mk path (some bag)).loadDataset cast (calls.foldl (ioStep cast path bag) fs₀) topic true).2 = .ok ds' ∧
      DatasetWithin (0.0001 / 2) ds' ds := by
  have := C60_history_partial cast path bag fs₀ h₀ calls ht topic htopic
  rw [hds] at this
  exact ⟨_, this, C54_dataset cast hb⟩

/-- A dataset that is in the cache is returned without opening the bag, and loading it again changes no file. -/
theorem C60_outside (cast : ℤ → ℤ) (path : Path) (bag : Option Bag) (fs : Files) (topic : String) {fs' : Files} {ds : Dataset}
    (h : (Reader.mk path bag).loadDataset cast fs topic true = (fs', .ok ds)) :
    (Reader.mk path none).loadDataset cast fs' topic true = (fs', .ok ds) := by
  cases hf : fs ((Reader.mk path bag).cachePath topic) with
  | some f =>
    rw [load_cached hf] at h
    obtain ⟨rfl, h2⟩ := Prod.mk.inj h
    rw [cachePath_bag path bag none] at hf
    rw [load_cached hf, h2]
  | none =>
    rw [load_uncached hf] at h
    cases hx : (Reader.mk path bag).loadDatasetUncached topic with
    | error e => rw [hx] at h; simp at h
    | ok d =>
      rw [hx] at h
      obtain ⟨rfl, h2⟩ := Prod.mk.inj h
      rw [load_cached (f := writeNetcdf cast d), h2]
      exact Function.update_self _ _ _

/-- The first dataset that is cached stays: whatever bag is at the same place later, in the same folder, and whatever topic maps to the same file. -/
theorem C60_first_wins (cast : ℤ → ℤ) {path path' : Path} (hf : path'.folder = path.folder) (bag : Option Bag) (bag' : Option Bag) (fs : Files)
    {topic topic' : String} (hn : (Reader.mk path none).cachePath topic = (Reader.mk path none).cachePath topic') {fs' : Files} {ds : Dataset}
    (h : (Reader.mk path bag).loadDataset cast fs topic true = (fs', .ok ds)) :
    (Reader.mk path' bag').loadDataset cast fs' topic' true = (fs', .ok ds) := by
  have e : (Reader.mk path' bag').cachePath topic' = (Reader.mk path none).cachePath topic := by
    rw [hn]
    simp [Reader.cachePath, hf]
  have h2 := C60_outside cast path bag fs topic h
  cases hx : fs' ((Reader.mk path none).cachePath topic) with
  | some f =>
    rw [load_cached hx] at h2
    rw [load_cached (e ▸ hx)]
    exact h2
  | none =>
    rw [load_uncached hx] at h2
    have : (Reader.mk path none).loadDatasetUncached topic = .error .runtimeError := rfl
    rw [this] at h2
    simp at h2

/-- A bag with one transform message at second `τ` at position `(x, 0, 0)` on a topic. -/
noncomputable def oneMsg (topic : String) (x : ℝ) : Bag :=
  ⟨[(topic, "geometry_msgs/TransformStamped")],
   [⟨topic, .transform ⟨⟨1000000000, some "a"⟩, some "b", ⟨⟨x, 0, 0⟩, ⟨0, 0, 0, 1⟩⟩⟩, 0⟩]⟩

theorem oneMsg_load (path : Path) (topic : String) (x : ℝ) : (Reader.mk path (some (oneMsg topic x))).loadDatasetUncached topic =
    .ok ⟨[1000000000], [[some x, some 0, some 0]], [[some 1, some 0, some 0, some 0]], none⟩ := by
  have h : rint 1000000000 = 1000000000 := by
    have := rint_int 1000000000
    push_cast at this
    exact this
  simp [Reader.loadDatasetUncached, Reader.loadMessages, oneMsg, Bag.msgType, Bag.readMessages, bind, Except.bind, transformRow, Pure.pure,
    Except.pure, col, cols, unpackPoint, unpackQuaternion, XYZ.tuple, XYZW.tuple, toSec, someRows, h]

theorem cache_shared (cast : ℤ → ℤ) {path path' : Path} (hf : path'.folder = path.folder) {topic topic' : String}
    (hn : (Reader.mk path none).cachePath topic = (Reader.mk path none).cachePath topic') :
    ∃ ds ds', (Reader.mk path' (some (oneMsg topic' 7))).loadDatasetUncached topic' = .ok ds ∧
      ((Reader.mk path' (some (oneMsg topic' 7))).loadDataset cast
        ((Reader.mk path (some (oneMsg topic 3))).loadDataset cast (fun _ => none) topic true).1 topic' true).2 = .ok ds' ∧
      ds.position = [[some 7, some 0, some 0]] ∧ ds'.position = [[some 3, some 0, some 0]] := by
  obtain ⟨fs, h1⟩ := load_fresh cast (oneMsg_load path topic 3)
  have h2 := C60_first_wins cast hf (some (oneMsg topic 3)) (some (oneMsg topic' 7)) _ hn h1
  refine ⟨_, _, oneMsg_load _ _ _, by rw [h1]; exact congrArg Prod.snd h2, rfl, ?_⟩
  · have a : decode (encode cast (some 3)) = some 3 := by
      have := C54_exact cast 30000 (by norm_num)
      norm_num at this
      exact this
    have b : decode (encode cast (some 0)) = some 0 := by
      have := C54_exact cast 0 (by norm_num)
      norm_num at this
      exact this
    simp [openDataset, writeNetcdf, a, b]

/-- C60 is false in general: a second bag in the same folder gets the cached data of the first one. -/
theorem C60_other_bag_is_false (cast : ℤ → ℤ) : ∃ (rd rd' : Reader) (topic : String) (ds ds' : Dataset), rd.bagFile ≠ rd'.bagFile ∧
    rd'.loadDatasetUncached topic = .ok ds ∧ (rd'.loadDataset cast (rd.loadDataset cast (fun _ => none) topic true).1 topic true).2 = .ok ds' ∧
    ds.position = [[some 7, some 0, some 0]] ∧ ds'.position = [[some 3, some 0, some 0]] := by
  obtain ⟨ds, ds', h1, h2, h3, h4⟩ := cache_shared cast (path := ⟨["data"], "a.bag"⟩) (path' := ⟨["data"], "b.bag"⟩) rfl (topic := "/pose") (topic' := "/pose") rfl
  exact ⟨_, _, _, ds, ds', by simp, h1, h2, h3, h4⟩

/-- C60 is false in general: when the bag is recorded again under the same name, the old data are returned. -/
theorem C60_new_bag_is_false (cast : ℤ → ℤ) : ∃ (path : Path) (b b' : Bag) (topic : String) (ds ds' : Dataset),
    (Reader.mk path (some b')).loadDatasetUncached topic = .ok ds ∧
    ((Reader.mk path (some b')).loadDataset cast ((Reader.mk path (some b)).loadDataset cast (fun _ => none) topic true).1 topic true).2 = .ok ds' ∧
    ds.position = [[some 7, some 0, some 0]] ∧ ds'.position = [[some 3, some 0, some 0]] := by
  obtain ⟨ds, ds', h1, h2, h3, h4⟩ := cache_shared cast (path := ⟨["data"], "a.bag"⟩) (path' := ⟨["data"], "a.bag"⟩) rfl (topic := "/pose") (topic' := "/pose") rfl
  exact ⟨_, _, _, _, ds, ds', h1, h2, h3, h4⟩

/-- C60 is false for topics that differ only in slashes and underscores, also within one bag. -/
theorem C60_topics_is_false (cast : ℤ → ℤ) : ∃ (rd : Reader) (t t' : String) (ds ds' : Dataset),
    rd.loadDatasetUncached t' = .ok ds ∧ (rd.loadDataset cast (rd.loadDataset cast (fun _ => none) t true).1 t' true).2 = .ok ds' ∧
    ds.position = [[some 7, some 0, some 0]] ∧ ds'.position = [[some 3, some 0, some 0]] := by
  let bag : Bag := ⟨[("/imu/left", "geometry_msgs/TransformStamped"), ("/imu_left", "geometry_msgs/TransformStamped")],
   [⟨"/imu/left", .transform ⟨⟨1000000000, some "a"⟩, some "b", ⟨⟨3, 0, 0⟩, ⟨0, 0, 0, 1⟩⟩⟩, 0⟩,
    ⟨"/imu_left", .transform ⟨⟨1000000000, some "a"⟩, some "b", ⟨⟨7, 0, 0⟩, ⟨0, 0, 0, 1⟩⟩⟩, 0⟩]⟩
  let rd : Reader := ⟨⟨["data"], "a.bag"⟩, some bag⟩
  have h : rint 1000000000 = 1000000000 := by
    have := rint_int 1000000000
    push_cast at this
    exact this
  have e1 : rd.loadDatasetUncached "/imu/left" = .ok ⟨[1000000000], [[some 3, some 0, some 0]], [[some 1, some 0, some 0, some 0]], none⟩ := by
    simp [rd, bag, Reader.loadDatasetUncached, Reader.loadMessages, Bag.msgType, Bag.readMessages, bind, Except.bind, transformRow, Pure.pure,
      Except.pure, col, cols, unpackPoint, unpackQuaternion, XYZ.tuple, XYZW.tuple, toSec, someRows, h]
  have e2 : rd.loadDatasetUncached "/imu_left" = .ok ⟨[1000000000], [[some 7, some 0, some 0]], [[some 1, some 0, some 0, some 0]], none⟩ := by
    have hb : ("/imu_left" == "/imu/left") = false := by decide
    simp [rd, bag, Reader.loadDatasetUncached, Reader.loadMessages, Bag.msgType, Bag.readMessages, bind, Except.bind, transformRow, Pure.pure,
      Except.pure, col, cols, unpackPoint, unpackQuaternion, XYZ.tuple, XYZW.tuple, toSec, someRows, h, List.lookup_cons, hb]
  obtain ⟨fs, h1⟩ := load_fresh cast e1
  have h2 := C60_first_wins cast rfl (some bag) (some bag) _ (C54_names_is_false (Reader.mk ⟨["data"], "a.bag"⟩ none)).1 h1
  refine ⟨rd, "/imu/left", "/imu_left", _, _, e2, by rw [h1]; exact congrArg Prod.snd h2, rfl, ?_⟩
  · have a : decode (encode cast (some 3)) = some 3 := by
      have := C54_exact cast 30000 (by norm_num)
      norm_num at this
      exact this
    have b : decode (encode cast (some 0)) = some 0 := by
      have := C54_exact cast 0 (by norm_num)
      norm_num at this
      exact this
    simp [openDataset, writeNetcdf, a, b]

/-! ### Exports -/

/-- `export(topic, path)` writes the dataset of the topic to the given file and touches no other one. -/
theorem C60_export_path (cast : ℤ → ℤ) (rd : Reader) (fs : Files) (topic : String) (p : Path) {ds : Dataset}
    (h : rd.loadDatasetUncached topic = .ok ds) :
    ∃ fs' f, rd.exportNc cast fs topic (.path p) = (fs', .ok ()) ∧ fs' p = some f ∧ openDataset f = openDataset (writeNetcdf cast ds) ∧
      ∀ p', p' ≠ p → fs' p' = fs p' := by
  refine ⟨_, _, by simp only [Reader.exportNc, h, Reader.getFilename]; rfl, Function.update_self _ _ _, rfl, ?_⟩
  intro p' hp
  exact Function.update_of_ne hp _ _

/-- By default the file is next to the bag, with `.nc` instead of `.bag`. -/
theorem C60_export_default (cast : ℤ → ℤ) (folder : List String) (base : String) (hb : base ≠ "") (bag : Bag) (fs : Files) (topic : String)
    {ds : Dataset} (h : (Reader.mk ⟨folder, base ++ ".bag"⟩ (some bag)).loadDatasetUncached topic = .ok ds) :
    ∃ fs' f, (Reader.mk ⟨folder, base ++ ".bag"⟩ (some bag)).exportNc cast fs topic .none = (fs', .ok ()) ∧
      fs' ⟨folder, base ++ ".nc"⟩ = some f ∧ openDataset f = openDataset (writeNetcdf cast ds) ∧
      ∀ p', p' ≠ ⟨folder, base ++ ".nc"⟩ → fs' p' = fs p' := by
  have hs : stem (base ++ ".bag") = base := by
    have hl : base.toList ≠ [] := by
      intro e
      apply hb
      rw [← String.toList_inj, e]
      rfl
    have hp : 0 < base.toList.length := List.length_pos_iff.mpr hl
    have e : (base ++ ".bag").toList = base.toList ++ ['.', 'b', 'a', 'g'] := by simp
    have e2 : ((base ++ ".bag").toList.reverse.takeWhile fun c => decide (c ≠ '.')) = ['g', 'a', 'b'] := by
      rw [e, List.reverse_append]
      simp
    simp only [stem, e2]
    rw [e, if_pos]
    · simp
    · simp only [List.length_append, List.length_cons, List.length_nil, ne_eq, reduceCtorEq, not_false_eq_true, and_true]
      omega
  have := C60_export_path cast (Reader.mk ⟨folder, base ++ ".bag"⟩ (some bag)) fs topic ⟨folder, base ++ ".nc"⟩ h
  simp only [Reader.exportNc, Reader.getFilename, h, hs] at this ⊢
  exact this

/-- The documented string argument is not accepted: `AttributeError`, and nothing is written. -/
theorem C60_export_str_is_false (cast : ℤ → ℤ) (rd : Reader) (fs : Files) (topic s : String) {ds : Dataset}
    (h : rd.loadDatasetUncached topic = .ok ds) : rd.exportNc cast fs topic (.str s) = (fs, .error .attributeError) := by
  simp only [Reader.exportNc, h, Reader.getFilename]

/-- A failed export writes nothing. -/
theorem C60_export_fails (cast : ℤ → ℤ) (rd : Reader) (fs : Files) (topic : String) (out : OutFile) {fs' : Files} {e : PyErr}
    (h : rd.exportNc cast fs topic out = (fs', .error e)) : fs' = fs := by
  unfold Reader.exportNc at h
  split at h
  · exact (Prod.mk.inj h).1.symm
  · split at h
    · exact (Prod.mk.inj h).1.symm
    · simp at h

/-- The hypotheses of C60_values_partial are met by a bag with one message and a history that loads inside and outside of the context manager and
exports the topic. -/
example (cast : ℤ → ℤ) : ∃ ds', ((Reader.mk ⟨["data"], "a.bag"⟩ (some (oneMsg "/pose" 3))).loadDataset cast
    ([IoCall.load false "/pose" true, .load true "/pose" true, .exportTo true "/pose" .none, .load false "/pose" true].foldl
      (ioStep cast ⟨["data"], "a.bag"⟩ (oneMsg "/pose" 3)) fun _ => none) "/pose" true).2 = .ok ds' ∧
    DatasetWithin (0.0001 / 2) ds' ⟨[1000000000], [[some 3, some 0, some 0]], [[some 1, some 0, some 0, some 0]], none⟩ := by
  refine C60_values_partial cast _ _ _ (fun _ _ => rfl) _ ?_ _ (by decide) (oneMsg_load _ _ _) ⟨?_, ?_, by simp⟩
  · intro c hc
    simp only [List.mem_cons, List.not_mem_nil, or_false] at hc
    rcases hc with rfl | rfl | rfl | rfl <;> simp [IoCall.Tame]
  · intro r hr x hx
    simp only [List.mem_singleton] at hr
    subst hr
    simp only [List.mem_cons, Option.some.injEq, List.not_mem_nil, or_false] at hx
    rcases hx with rfl | rfl | rfl <;> norm_num
  · intro r hr x hx
    simp only [List.mem_singleton] at hr
    subst hr
    simp only [List.mem_cons, Option.some.injEq, List.not_mem_nil, or_false] at hx
    rcases hx with rfl | rfl | rfl | rfl <;> norm_num

/-- `C60_outside` and `C60_first_wins` after one load; the second reader has another bag in the same folder and a topic with the same cache file. -/
example (cast : ℤ → ℤ) : ∃ fs ds, (Reader.mk ⟨["data"], "a.bag"⟩ none).loadDataset cast fs "/pose" true = (fs, .ok ds) ∧
    (Reader.mk ⟨["data"], "b.bag"⟩ (some (oneMsg "/pose" 7))).loadDataset cast fs "/pose" true = (fs, .ok ds) := by
  obtain ⟨fs, h⟩ := load_fresh cast (oneMsg_load ⟨["data"], "a.bag"⟩ "/pose" 3)
  exact ⟨fs, _, C60_outside cast _ _ _ _ h, C60_first_wins cast (path := ⟨["data"], "a.bag"⟩) (path' := ⟨["data"], "b.bag"⟩) rfl _ _ _ rfl h⟩

/-- Exports of a bag with one message. -/
example (cast : ℤ → ℤ) : ∃ fs' f, (Reader.mk ⟨["data"], "a.bag"⟩ (some (oneMsg "/pose" 3))).exportNc cast (fun _ => none) "/pose" (.path ⟨["out"], "x.nc"⟩) =
    (fs', .ok ()) ∧ fs' ⟨["out"], "x.nc"⟩ = some f := by
  obtain ⟨fs', f, h1, h2, -⟩ := C60_export_path cast (Reader.mk ⟨["data"], "a.bag"⟩ (some (oneMsg "/pose" 3))) (fun _ => none) "/pose" ⟨["out"], "x.nc"⟩
    (oneMsg_load _ _ _)
  exact ⟨fs', f, h1, h2⟩

example (cast : ℤ → ℤ) : ∃ fs' f, (Reader.mk ⟨["data"], "a.bag"⟩ (some (oneMsg "/pose" 3))).exportNc cast (fun _ => none) "/pose" .none =
    (fs', .ok ()) ∧ fs' ⟨["data"], "a.nc"⟩ = some f := by
  obtain ⟨fs', f, h1, h2, -⟩ := C60_export_default cast ["data"] "a" (by decide) (oneMsg "/pose" 3) (fun _ => none) "/pose" (oneMsg_load _ _ _)
  exact ⟨fs', f, h1, h2⟩

example (cast : ℤ → ℤ) (fs : Files) : (Reader.mk ⟨["data"], "a.bag"⟩ (some (oneMsg "/pose" 3))).exportNc cast fs "/pose" (.str "x.nc") = (fs, .error .attributeError) :=
  C60_export_str_is_false cast _ fs _ _ (oneMsg_load _ _ _)

example (cast : ℤ → ℤ) (fs : Files) : ∃ e, (Reader.mk ⟨["data"], "a.bag"⟩ none).exportNc cast fs "/pose" .none = (fs, .error e) := by
  cases h : (Reader.mk ⟨["data"], "a.bag"⟩ none).exportNc cast fs "/pose" .none with
  | mk fs' r => cases r with
    | ok _ => simp [Reader.exportNc, Reader.loadDatasetUncached, Reader.loadMessages, bind, Except.bind] at h
    | error e => exact ⟨e, by rw [C60_export_fails cast _ fs _ _ h]⟩

end RBM.Props
