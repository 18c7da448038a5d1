import Verif.Lemmas.HeapState

namespace RBM.Heap

open RBM

/-! ### transform functions -/

/-- The keyword arguments exist. -/
def HTArgs.Known (m : Mem) (o : HTArgs) : Prop := ∀ x, o.timestamps = some x → x.Known m

/-- The part that the three functions share. -/
theorem runs_vectors (sq : SquadFn) {s : HState} (hs : s.Sound) (a : ℕ) {arr : ArrayLike} (ha : arr.Known s.mem) (dst : FrameRef)
    {o : HTArgs} (ho : o.Known s.mem) :
    Runs (transformVectorsH sq s a arr dst o) s.mem (s.view.transformVectors sq a (arr.read s.mem) dst (o.read s.mem)) (NewRet s.mem) := by
  unfold transformVectorsH
  have e : s.view.transformVectors sq a (arr.read s.mem) dst (o.read s.mem) =
      (validateInput (arr.read s.mem) o.axis 3 (o.timestamps.map (ArrayLike.read s.mem)) o.timeAxis).bind fun inp =>
      (s.view.getMatcher a dst [⟨inp.1, inp.2⟩]).bind fun m =>
      (m.getTransformation sq).bind fun trs =>
      (m.getArray1 sq trs.2.2).bind fun ac =>
      (rotateVectorsF (expandSingletonAxes (ND.ofQuats trs.2.1) ac.ndim) ac o.axis).bind fun c =>
      (undoTimeSwap c o.timeAxis).bind fun a => .ok (pyReturn o.returnTimestamps a trs.2.2) := by
    simp only [State.transformVectors, State.transformVectorsCore, HTArgs.read, bind, Except.bind, Pure.pure, Except.pure]
    cases validateInput (arr.read s.mem) o.axis 3 (o.timestamps.map (ArrayLike.read s.mem)) o.timeAxis with
    | error e => rfl
    | ok inp =>
      simp only
      cases s.view.getMatcher a dst [⟨inp.1, inp.2⟩] with
      | error e => rfl
      | ok m =>
        simp only
        cases m.getTransformation sq with
        | error e => rfl
        | ok trs =>
          simp only
          cases m.getArray1 sq trs.2.2 with
          | error e => rfl
          | ok ac =>
            simp only
            cases rotateVectorsF (expandSingletonAxes (ND.ofQuats trs.2.1) ac.ndim) ac o.axis <;> rfl
  rw [e]
  refine Runs.bind (runs_validate ha ho o.axis 3 o.timeAxis) ?_
  rintro x y m1 k1 ⟨x1, x2⟩
  refine Runs.bind (Runs.congr (runs_getMatcher hs k1 a dst [x] (by simpa using x1)) rfl (by simp [x2])) ?_
  rintro z w m1 _ ⟨rfl, z1, rfl, z3⟩
  refine Runs.bind (runs_getTransformation sq z1) ?_
  rintro ⟨t, r, ts⟩ ⟨tv, rv, l⟩ m2 k2 ⟨n1, n2, n3, _⟩
  have z2 := z1.keeps k2
  rw [← z2.2]
  refine Runs.bind (runs_getArray1 sq z2.1 z3 n3.has) ?_
  rintro ar ac m3 k3 ⟨rfl, c2⟩
  refine Runs.step rfl (Runs.step rfl ?_)
  rw [(n2.keeps k3).value]
  refine Runs.bind (Runs.lift _ m3) ?_
  rintro c _ m3 _ ⟨rfl, rfl⟩
  refine Runs.bindNew ?_
  intro out m4 k4 n4
  exact runs_finish o (n4.before ((k1.trans k2).trans k3)) ((n3.keeps (k3.trans k4)).before k1) ((n3.keeps k3).apart n4.fresh)

theorem runs_points (sq : SquadFn) {s : HState} (hs : s.Sound) (a : ℕ) {arr : ArrayLike} (ha : arr.Known s.mem) (dst : FrameRef)
    {o : HTArgs} (ho : o.Known s.mem) :
    Runs (transformPointsH sq s a arr dst o) s.mem (s.view.transformPoints sq a (arr.read s.mem) dst (o.read s.mem)) (NewRet s.mem) := by
  unfold transformPointsH
  have e : s.view.transformPoints sq a (arr.read s.mem) dst (o.read s.mem) =
      (validateInput (arr.read s.mem) o.axis 3 (o.timestamps.map (ArrayLike.read s.mem)) o.timeAxis).bind fun inp =>
      (s.view.getMatcher a dst [⟨inp.1, inp.2⟩]).bind fun m =>
      (m.getTransformation sq).bind fun trs =>
      (m.getArray1 sq trs.2.2).bind fun ac =>
      (rotateVectorsF (expandSingletonAxes (ND.ofQuats trs.2.1) ac.ndim) ac o.axis).bind fun c =>
      (ND.bop (fun x y => x + y) c (expandSingletonAxes (ND.ofVecs trs.1) ac.ndim)).bind fun d =>
      (undoTimeSwap d o.timeAxis).bind fun a => .ok (pyReturn o.returnTimestamps a trs.2.2) := by
    simp only [State.transformPoints, State.transformPointsCore, HTArgs.read, bind, Except.bind, Pure.pure, Except.pure]
    cases validateInput (arr.read s.mem) o.axis 3 (o.timestamps.map (ArrayLike.read s.mem)) o.timeAxis with
    | error e => rfl
    | ok inp =>
      simp only
      cases s.view.getMatcher a dst [⟨inp.1, inp.2⟩] with
      | error e => rfl
      | ok m =>
        simp only
        cases m.getTransformation sq with
        | error e => rfl
        | ok trs =>
          simp only
          cases m.getArray1 sq trs.2.2 with
          | error e => rfl
          | ok ac =>
            simp only
            cases rotateVectorsF (expandSingletonAxes (ND.ofQuats trs.2.1) ac.ndim) ac o.axis with
            | error e => rfl
            | ok c =>
              simp only
              cases ND.bop (fun x y => x + y) c (expandSingletonAxes (ND.ofVecs trs.1) ac.ndim) <;> rfl
  rw [e]
  refine Runs.bind (runs_validate ha ho o.axis 3 o.timeAxis) ?_
  rintro x y m1 k1 ⟨x1, x2⟩
  refine Runs.bind (Runs.congr (runs_getMatcher hs k1 a dst [x] (by simpa using x1)) rfl (by simp [x2])) ?_
  rintro z w m1 _ ⟨rfl, z1, rfl, z3⟩
  refine Runs.bind (runs_getTransformation sq z1) ?_
  rintro ⟨t, r, ts⟩ ⟨tv, rv, l⟩ m2 k2 ⟨n1, n2, n3, _⟩
  have z2 := z1.keeps k2
  rw [← z2.2]
  refine Runs.bind (runs_getArray1 sq z2.1 z3 n3.has) ?_
  rintro ar ac m3 k3 ⟨rfl, c2⟩
  refine Runs.step rfl (Runs.step rfl (Runs.step rfl ?_))
  rw [(n2.keeps k3).value, (n1.keeps k3).value]
  refine Runs.bind (Runs.lift _ m3) ?_
  rintro c _ m3 _ ⟨rfl, rfl⟩
  refine Runs.bindNew ?_
  intro rot m4 k4 n4
  refine Runs.step rfl ?_
  rw [n4.value]
  refine Runs.bind (Runs.lift _ m4) ?_
  rintro d _ m4 _ ⟨rfl, rfl⟩
  refine Runs.bindNew ?_
  intro out m5 k5 n5
  exact runs_finish o (n5.before (((k1.trans k2).trans k3).trans k4)) ((n3.keeps ((k3.trans k4).trans k5)).before k1) ((n3.keeps (k3.trans k4)).apart n5.fresh)

theorem runs_quaternions (sq : SquadFn) {s : HState} (hs : s.Sound) (a : ℕ) {arr : ArrayLike} (ha : arr.Known s.mem) (dst : FrameRef)
    {o : HTArgs} (ho : o.Known s.mem) :
    Runs (transformQuaternionsH sq s a arr dst o) s.mem (s.view.transformQuaternions sq a (arr.read s.mem) dst (o.read s.mem)) (NewRet s.mem) := by
  unfold transformQuaternionsH
  have e : s.view.transformQuaternions sq a (arr.read s.mem) dst (o.read s.mem) =
      (validateInput (arr.read s.mem) o.axis 4 (o.timestamps.map (ArrayLike.read s.mem)) o.timeAxis).bind fun inp =>
      (s.view.getMatcher a dst [⟨inp.1, inp.2⟩]).bind fun m =>
      (m.getTransformation sq).bind fun trs =>
      (m.getArray1 sq trs.2.2).bind fun ac =>
      (ac.swapaxesZ o.axis (-1)).bind fun sw =>
      (asQuatArray (expandSingletonAxes (ND.ofQuats trs.2.1) ac.ndim)).bind fun rq =>
      (asQuatArray sw).bind fun aq =>
      (ND.bop (fun x y => x * y) rq aq).bind fun prod =>
      ((asFloatArray prod).swapaxesZ (-1) o.axis).bind fun d =>
      (undoTimeSwap d o.timeAxis).bind fun a => .ok (pyReturn o.returnTimestamps a trs.2.2) := by
    simp only [State.transformQuaternions, State.transformQuaternionsCore, HTArgs.read, bind, Except.bind, Pure.pure, Except.pure]
    cases validateInput (arr.read s.mem) o.axis 4 (o.timestamps.map (ArrayLike.read s.mem)) o.timeAxis with
    | error e => rfl
    | ok inp =>
      simp only
      cases s.view.getMatcher a dst [⟨inp.1, inp.2⟩] with
      | error e => rfl
      | ok m =>
        simp only
        cases m.getTransformation sq with
        | error e => rfl
        | ok trs =>
          simp only
          cases m.getArray1 sq trs.2.2 with
          | error e => rfl
          | ok ac =>
            simp only
            cases ac.swapaxesZ o.axis (-1) with
            | error e => rfl
            | ok sw =>
              simp only
              cases asQuatArray (expandSingletonAxes (ND.ofQuats trs.2.1) ac.ndim) with
              | error e => rfl
              | ok rq =>
                simp only
                cases asQuatArray sw with
                | error e => rfl
                | ok aq =>
                  simp only
                  cases ND.bop (fun x y => x * y) rq aq with
                  | error e => rfl
                  | ok prod =>
                    simp only
                    cases (asFloatArray prod).swapaxesZ (-1) o.axis <;> rfl
  rw [e]
  refine Runs.bind (runs_validate ha ho o.axis 4 o.timeAxis) ?_
  rintro x y m1 k1 ⟨x1, x2⟩
  refine Runs.bind (Runs.congr (runs_getMatcher hs k1 a dst [x] (by simpa using x1)) rfl (by simp [x2])) ?_
  rintro z w m1 _ ⟨rfl, z1, rfl, z3⟩
  refine Runs.bind (runs_getTransformation sq z1) ?_
  rintro ⟨t, r, ts⟩ ⟨tv, rv, l⟩ m2 k2 ⟨n1, n2, n3, _⟩
  have z2 := z1.keeps k2
  rw [← z2.2]
  refine Runs.bind (runs_getArray1 sq z2.1 z3 n3.has) ?_
  rintro ar ac m3 k3 ⟨rfl, c2⟩
  refine Runs.step rfl ?_
  rw [(n2.keeps k3).value]
  refine Runs.bind (Runs.swapRef ar o.axis (-1) m3) ?_
  rintro sw _ m3 _ ⟨rfl, s1, rfl⟩
  refine Runs.step rfl ?_
  refine Runs.bind (Runs.lift _ m3) ?_
  rintro rq _ m3 _ ⟨rfl, rfl⟩
  refine Runs.bind (Runs.lift _ m3) ?_
  rintro aq _ m3 _ ⟨rfl, rfl⟩
  refine Runs.bind (Runs.lift _ m3) ?_
  rintro prod _ m3 _ ⟨rfl, rfl⟩
  refine Runs.bindNew ?_
  intro p m4 k4 n4
  rw [← n4.value]
  refine Runs.bind (Runs.swapRef p (-1) o.axis m4) ?_
  rintro out _ m4 _ ⟨rfl, s2, rfl⟩
  have n5 := n4.swap s2 rfl
  exact runs_finish o (n5.before ((k1.trans k2).trans k3)) ((n3.keeps (k3.trans k4)).before k1) ((n3.keeps k3).apart n5.fresh)

/-! ### `register_frame` -/

/-- The values of the process for a given registry and tree. -/
theorem view_with (s : HState) (mem : Mem) (st : State) (obj : ℕ → Option HFrame) :
    (⟨mem, st, obj⟩ : HState).view = { st with data := fun i => (obj i).map (HFrame.read mem) } := rfl

theorem withData_setParent (s : State) (d : ℕ → Option FrameData) (i : ℕ) (v : Option ℕ) :
    ({ s with data := d } : State).setParent i v = ({ (s.setParent i v).1 with data := d }, (s.setParent i v).2) := by
  have hc : ({ s with data := d } : State).checkLoop i v = s.checkLoop i v := by
    cases v <;> rfl
  simp only [State.setParent, hc]
  by_cases h : s.parent i = v
  · simp only [if_pos h]
  · simp only [if_neg h]
    cases s.checkLoop i v with
    | error e => rfl
    | ok u =>
      simp only [State.detach]
      cases hp : s.parent i with
      | none =>
        simp only [State.attach]
        cases v with
        | none => rfl
        | some p => simp only; split <;> rfl
      | some q =>
        simp only
        by_cases hq : i ∈ s.children q
        · simp only [if_pos hq, State.attach]
          cases v with
          | none => rfl
          | some p => simp only; split <;> rfl
        · simp only [if_neg hq]

theorem withData_register (s : State) (d : ℕ → Option FrameData) (i : ℕ) (u : Bool) :
    ({ s with data := d } : State).register i u = ({ (s.register i u).1 with data := d }, (s.register i u).2) := by
  simp only [State.register, withData_setParent]
  cases s.name i with
  | none => rfl
  | some n =>
    simp only
    cases dictGet s.reg n with
    | none => rfl
    | some old =>
      simp only
      cases u with
      | false => rfl
      | true =>
        simp only [if_true]
        rcases hsp : s.setParent old none with ⟨s', _ | _⟩ <;> rfl

theorem HState.Sound.keeps {s : HState} (hs : s.Sound) {m : Mem} (hm : Keeps s.mem m) (st : State) : (⟨m, st, s.obj⟩ : HState).Sound :=
  fun i f h => ((hs i f h).keeps hm).1

theorem view_keeps {s : HState} (hs : s.Sound) {m : Mem} (hm : Keeps s.mem m) (st : State) :
    (⟨m, st, s.obj⟩ : HState).view = { st with data := s.view.data } := by
  rw [view_with s]
  congr 1
  funext i
  change _ = (s.obj i).map (HFrame.read s.mem)
  cases h : s.obj i with
  | none => rfl
  | some f => simp [((hs i f h).keeps hm).2]

end RBM.Heap
