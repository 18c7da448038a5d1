import Verif.Props.ThreadsCalls

/-!
C92: examples; two loops at once.
-/

namespace RBM.Props

open RBM RBM.Ros RBM.Spec

/-- Three samples, at 5 s, 6 s and 7 s. -/
noncomputable def exThree : Broadcaster where
  frameName := some "rb"
  baseName := some "world"
  translation := .many [![1, 0, 0], ![2, 0, 0], ![3, 0, 0]]
  rotation := .many [⟨1, 0, 0, 0⟩, ⟨1, 0, 0, 0⟩, ⟨1, 0, 0, 0⟩]
  timestamps := some [5000000000, 6000000000, 7000000000]
  pose := false
  twist := none
  subscribed := none
  idx := 0
  stopped := false

theorem exThree_playable (i : ℤ) (st : Bool) : Playable { exThree with idx := i, stopped := st } [5000000000, 6000000000, 7000000000]
    [![1, 0, 0], ![2, 0, 0], ![3, 0, 0]] [⟨1, 0, 0, 0⟩, ⟨1, 0, 0, 0⟩, ⟨1, 0, 0, 0⟩] where
  nonempty := by simp
  stamps := by simp [exThree]
  translation := rfl
  rotation := rfl
  tlen := rfl
  rlen := rfl
  twist := by simp [exThree]

theorem exThree_moving (i : ℤ) (st : Bool) (k : ℕ) (hk : k < 3) : ∃ m, movingMsgs { exThree with idx := i, stopped := st } [5000000000, 6000000000, 7000000000] (k : ℤ) = .ok [m] ∧
    ShowsSample exThree [5000000000, 6000000000, 7000000000] [![1, 0, 0], ![2, 0, 0], ![3, 0, 0]] [⟨1, 0, 0, 0⟩, ⟨1, 0, 0, 0⟩, ⟨1, 0, 0, 0⟩] k [m] := by
  obtain ⟨ms, e, _, h, _⟩ := moving_ok (exThree_playable i st) (k := (k : ℤ)) ⟨by simp only [List.length_cons, List.length_nil]; omega, by simp only [List.length_cons, List.length_nil]; omega⟩
  have e' : [5000000000, 6000000000, 7000000000].map (fun n : ℕ => (n : ℝ)) = [5000000000, 6000000000, 7000000000] := by simp
  rw [e'] at e
  have hz : twPart { exThree with idx := i, stopped := st } (k : ℤ) = [] := rfl
  rw [hz, List.append_nil] at h
  have hm : ((k : ℤ) % (([5000000000, 6000000000, 7000000000] : List ℕ).length : ℕ)).toNat = k := by
    simp only [List.length_cons, List.length_nil]
    omega
  rw [hm] at h
  have h' : ShowsSample exThree [5000000000, 6000000000, 7000000000] [![1, 0, 0], ![2, 0, 0], ![3, 0, 0]] [⟨1, 0, 0, 0⟩, ⟨1, 0, 0, 0⟩, ⟨1, 0, 0, 0⟩] k ms := h
  obtain ⟨n, t, r, _, _, _, h4⟩ := id h'
  simp only [exThree, Bool.false_eq_true, if_false, List.append_nil] at h4
  obtain ⟨m, hm⟩ : ∃ m, ms = [m] := ⟨_, h4⟩
  subst hm
  exact ⟨m, e, h'⟩

/-- A schedule of two loops. -/
def twoLoops : List TEv :=
  [.spin, .spin, .run 0, .run 1, .run 0, .run 1, .run 0, .run 1, .run 0, .run 1, .run 0, .run 1, .run 0, .run 1, .run 0, .run 1,
   .run 0, .run 0, .run 1, .run 1,
   .run 0, .run 0, .run 0, .run 0, .run 0, .run 0, .run 0,
   .run 1, .run 1, .run 1, .run 1, .run 1, .run 1, .run 1]

/-- Two loops at once skip samples: both threads send sample 0, each advances the index, both go on with sample 2. (`spin` called twice is not "twice as
often": the order of `C92_one_loop` is lost.) -/
theorem C92_two_loops_skip (near : NearestFn) : ∃ (b : Broadcaster) (ns : List ℕ) (tl : List Vec) (rl : List Quat) (evs : List TEv),
    Playable b ns tl rl ∧ b.subscribed = none ∧ b.idx = 0 ∧ b.stopped = false ∧ (∀ e ∈ evs, e ≠ .stop ∧ e ≠ .shutdown) ∧
    Publishes b ns tl rl [0, 2] (sentBy 0 ((Threads.start b true).exec near evs).log) ∧
    Publishes b ns tl rl [0, 2] (sentBy 1 ((Threads.start b true).exec near evs).log) := by
  obtain ⟨m0, a0, s0⟩ := exThree_moving 0 false 0 (by omega)
  obtain ⟨m2, a2, s2⟩ := exThree_moving 2 false 2 (by omega)
  refine ⟨exThree, _, _, _, twoLoops, exThree_playable 0 false, rfl, rfl, rfl, by simp [twoLoops], ?_⟩
  have key : ∀ b : Broadcaster, b.timestamps = some [5000000000, 6000000000, 7000000000] → b.subscribed = none → b.twist = none → b.idx = 0 →
      (∀ i st, movingMsgs { b with idx := i, stopped := st } [5000000000, 6000000000, 7000000000] 0 = .ok [m0]) →
      (∀ i st, movingMsgs { b with idx := i, stopped := st } [5000000000, 6000000000, 7000000000] 2 = .ok [m2]) →
      ((Threads.start b true).exec near twoLoops).log = [(1, m2), (0, m2), (1, m0), (0, m0)] := by
    intro b h1 h2 h3 h4 h5 h6
    have h5' := h5
    have h6' := h6
    simp only [h1] at h5' h6'
    have p1 : pyGet ([5000000000, 6000000000, 7000000000] : List ℝ) 1 = .ok 6000000000 := by simp [pyGet]
    have p2 : pyGet ([5000000000, 6000000000, 7000000000] : List ℝ) 2 = .ok 7000000000 := by simp [pyGet]
    have hb : b = { b with idx := 0 } := by cases b; simp_all
    let M : Bool → ℤ → TPC → TPC → List (ℕ × OutMsg) → List (ℕ × ℝ) → Threads := fun st k p q l z =>
      ⟨{ b with idx := k, stopped := st }, true, false, [⟨.loop, p⟩, ⟨.loop, q⟩], l, z⟩
    have c0 : ((Threads.start b true).step near .spin).step near .spin = M b.stopped 0 .clear .clear [] [] := by
      have hm : M b.stopped 0 .clear .clear [] [] = ⟨b, true, false, [⟨.loop, .clear⟩, ⟨.loop, .clear⟩], [], []⟩ := by
        show (⟨{ b with idx := 0 }, true, false, [⟨.loop, .clear⟩, ⟨.loop, .clear⟩], [], []⟩ : Threads) = _
        rw [← hb]
      rw [hm]
      simp only [Threads.start, Threads.step, h1, List.nil_append, List.cons_append]
    have r0 : ∀ st k p q l z, (M st k p q l z).step near (.run 0) = (M st k p q l z).stmt 0 ⟨.loop, p⟩ := fun _ _ _ _ _ _ => rfl
    have r1 : ∀ st k p q l z, (M st k p q l z).step near (.run 1) = (M st k p q l z).stmt 1 ⟨.loop, q⟩ := fun _ _ _ _ _ _ => rfl
    have g0 : ∀ st k p q l z x, (M st k p q l z).goto 0 ⟨.loop, p⟩ x = M st k x q l z := fun _ _ _ _ _ _ _ => rfl
    have g1 : ∀ st k p q l z x, (M st k p q l z).goto 1 ⟨.loop, q⟩ x = M st k p x l z := fun _ _ _ _ _ _ _ => rfl
    have a1 : ∀ st k q l z, (M st k .clear q l z).stmt 0 ⟨.loop, .clear⟩ = M false k .shut q l z := by intros; simp [Threads.stmt, Threads.goto, M, h1, h2]
    have b1 : ∀ st k q l z, (M st k q .clear l z).stmt 1 ⟨.loop, .clear⟩ = M false k q .shut l z := by intros; simp [Threads.stmt, Threads.goto, M, h1, h2]
    have a2 : ∀ st k q l z, (M st k .shut q l z).stmt 0 ⟨.loop, .shut⟩ = M st k .halt q l z := by intros; simp [Threads.stmt, Threads.goto, M]
    have b2 : ∀ st k q l z, (M st k q .shut l z).stmt 1 ⟨.loop, .shut⟩ = M st k q .halt l z := by intros; simp [Threads.stmt, Threads.goto, M]
    have a3 : ∀ k q l z, (M false k .halt q l z).stmt 0 ⟨.loop, .halt⟩ = M false k (.fetch none) q l z := by intros; simp [Threads.stmt, Threads.goto, M]
    have b3 : ∀ k q l z, (M false k q .halt l z).stmt 1 ⟨.loop, .halt⟩ = M false k q (.fetch none) l z := by intros; simp [Threads.stmt, Threads.goto, M]
    have a4 : ∀ q l z, (M false 0 (.fetch none) q l z).stmt 0 ⟨.loop, .fetch none⟩ = M false 0 (.send 0 [m0]) q l z := by
      intros; simp [Threads.stmt, Threads.goto, M, h1, h5']
    have b4 : ∀ q l z, (M false 0 q (.fetch none) l z).stmt 1 ⟨.loop, .fetch none⟩ = M false 0 q (.send 0 [m0]) l z := by
      intros; simp [Threads.stmt, Threads.goto, M, h1, h5']
    have a5 : ∀ q l z, (M false 2 (.fetch none) q l z).stmt 0 ⟨.loop, .fetch none⟩ = M false 2 (.send 2 [m2]) q l z := by
      intros; simp [Threads.stmt, Threads.goto, M, h1, h6']
    have b5 : ∀ q l z, (M false 2 q (.fetch none) l z).stmt 1 ⟨.loop, .fetch none⟩ = M false 2 q (.send 2 [m2]) l z := by
      intros; simp [Threads.stmt, Threads.goto, M, h1, h6']
    have a6 : ∀ st k j m q l z, (M st k (.send j [m]) q l z).stmt 0 ⟨.loop, .send j [m]⟩ = M st k (.send j []) q ((0, m) :: l) z := fun _ _ _ _ _ _ _ => rfl
    have b6 : ∀ st k j m q l z, (M st k q (.send j [m]) l z).stmt 1 ⟨.loop, .send j [m]⟩ = M st k q (.send j []) ((1, m) :: l) z := fun _ _ _ _ _ _ _ => rfl
    have a7 : ∀ st k j q l z, (M st k (.send j []) q l z).stmt 0 ⟨.loop, .send j []⟩ = M st k (.twist j) q l z := fun _ _ _ _ _ _ => rfl
    have b7 : ∀ st k j q l z, (M st k q (.send j []) l z).stmt 1 ⟨.loop, .send j []⟩ = M st k q (.twist j) l z := fun _ _ _ _ _ _ => rfl
    have a8 : ∀ st k j q l z, (M st k (.twist j) q l z).stmt 0 ⟨.loop, .twist j⟩ = M st k .load q l z := by
      intros; simp [Threads.stmt, Thr.ret, M, h3]
    have b8 : ∀ st k j q l z, (M st k q (.twist j) l z).stmt 1 ⟨.loop, .twist j⟩ = M st k q .load l z := by
      intros; simp [Threads.stmt, Thr.ret, M, h3]
    have a9 : ∀ st q l z, (M st 0 .load q l z).stmt 0 ⟨.loop, .load⟩ = M st 0 (.store 1) q l z := by intros; simp [Threads.stmt, Threads.goto, M, h1]
    have b9 : ∀ st q l z, (M st 1 q .load l z).stmt 1 ⟨.loop, .load⟩ = M st 1 q (.store 2) l z := by intros; simp [Threads.stmt, Threads.goto, M, h1]
    have a10 : ∀ st k v q l z, (M st k (.store v) q l z).stmt 0 ⟨.loop, .store v⟩ = M st v .test q l z := fun _ _ _ _ _ _ => rfl
    have b10 : ∀ st k v q l z, (M st k q (.store v) l z).stmt 1 ⟨.loop, .store v⟩ = M st v q .test l z := fun _ _ _ _ _ _ => rfl
    have a11 : ∀ st q l z, (M st 2 .test q l z).stmt 0 ⟨.loop, .test⟩ = M st 2 .later q l z := by intros; simp [Threads.stmt, Threads.goto, M]
    have b11 : ∀ st q l z, (M st 2 q .test l z).stmt 1 ⟨.loop, .test⟩ = M st 2 q .later l z := by intros; simp [Threads.stmt, Threads.goto, M]
    have a12 : ∀ st q l z, (M st 2 .later q l z).stmt 0 ⟨.loop, .later⟩ = M st 2 (.earlier 7000000000) q l z := by
      intros; simp [Threads.stmt, Threads.goto, M, h1, p2]
    have b12 : ∀ st q l z, (M st 2 q .later l z).stmt 1 ⟨.loop, .later⟩ = M st 2 q (.earlier 7000000000) l z := by
      intros; simp [Threads.stmt, Threads.goto, M, h1, p2]
    have a13 : ∀ st q l z, (M st 2 (.earlier 7000000000) q l z).stmt 0 ⟨.loop, .earlier 7000000000⟩ =
        M st 2 .shut q l ((0, 7000000000 / 1000000000 - 6000000000 / 1000000000) :: z) := by
      intros; simp [Threads.stmt, Threads.goto, M, h1, p1]
    have b13 : ∀ st q l z, (M st 2 q (.earlier 7000000000) l z).stmt 1 ⟨.loop, .earlier 7000000000⟩ =
        M st 2 q .shut l ((1, 7000000000 / 1000000000 - 6000000000 / 1000000000) :: z) := by
      intros; simp [Threads.stmt, Threads.goto, M, h1, p1]
    have hM : ∀ st k p q l z, (M st k p q l z).log = l := fun _ _ _ _ _ _ => rfl
    simp only [twoLoops, Threads.exec, List.foldl_cons, List.foldl_nil]
    rw [c0]
    clear_value M
    simp only [r0, r1, a1, a2, a3, a4, a5, a6, a7, a8, a9, a10, a11, a12, a13, b1, b2, b3, b4, b5, b6, b7, b8, b9, b10, b11, b12, b13, hM]
  have hlog := key exThree rfl rfl rfl rfl (fun i st => a0) (fun i st => a2)
  rw [hlog]
  exact ⟨⟨[[m0], [m2]], .cons s0 (.cons s2 .nil), by simp [sentBy]⟩, ⟨[[m0], [m2]], .cons s0 (.cons s2 .nil), by simp [sentBy]⟩⟩

/-- Every schedule of the example sends whole samples, and its loops never fail (`C92_whole_samples`, `C92_alive`). -/
example (near : NearestFn) (evs : List TEv) (i : ℕ) :
    (∃ ks, Publishing exThree [5000000000, 6000000000, 7000000000] [![1, 0, 0], ![2, 0, 0], ![3, 0, 0]] [⟨1, 0, 0, 0⟩, ⟨1, 0, 0, 0⟩, ⟨1, 0, 0, 0⟩] ks
      (sentBy i ((Threads.start exThree true).exec near evs).log)) ∧
    ∀ t, ((Threads.start exThree true).exec near evs).threads[i]? = some t → t.role = .loop → ∀ e, t.pc ≠ .dead e :=
  ⟨C92_whole_samples near (exThree_playable 0 false) rfl true evs i, fun _ hi hl e => C92_alive near (exThree_playable 0 false) rfl true evs hi hl e⟩

/-- `stop` while one loop is running: it ends (`C92_stop`), and so does every loop at shutdown (`C92_shutdown`). -/
example (near : NearestFn) (after : List TEv) (ha : ∀ e ∈ after, e ≠ .spin) (h14 : 14 ≤ stepsOf 0 after) :
    (∃ t, ((Threads.start exThree true).exec near ([.spin, .run 0] ++ .stop :: after)).threads[0]? = some t ∧ t.pc = .done) ∧
    ∃ t, ((Threads.start exThree true).exec near ([.spin] ++ .shutdown :: after)).threads[0]? = some t ∧ t.pc = .done := by
  have hex : ((Threads.start exThree true).exec near [.spin, .run 0]).threads = [⟨.loop, .shut⟩] := by
    simp [Threads.exec, Threads.step, Threads.start, Threads.stmt, Threads.goto, exThree]
  have hex' : ((Threads.start exThree true).exec near [.spin]).threads = [⟨.loop, .clear⟩] := by
    simp [Threads.exec, Threads.step, Threads.start, exThree]
  obtain ⟨_, _, _, _, _, h⟩ := C92_stop near (exThree_playable 0 false) rfl rfl true [.spin, .run 0] after
    (by intro t ht; erw [hex] at ht; simp only [List.mem_singleton] at ht; subst ht; simp) ha (i := 0) (t := ⟨.loop, .shut⟩) (by erw [hex]; rfl) rfl
  obtain ⟨_, _, _, _, _, h'⟩ := C92_shutdown near (exThree_playable 0 false) rfl true [.spin] after (i := 0) (t := ⟨.loop, .clear⟩) (by erw [hex']; rfl) rfl
  exact ⟨h h14, h' h14⟩

/-- One loop, with other threads that call `publish`, keeps the order and gets on (`C92_one_loop`, `C92_progress`). -/
example (near : NearestFn) (after : List TEv) (ha : ∀ e ∈ after, e ≠ .spin) (ha' : ∀ e ∈ after, e ≠ .stop ∧ e ≠ .shutdown) :
    (∃ m, Publishing exThree [5000000000, 6000000000, 7000000000] [![1, 0, 0], ![2, 0, 0], ![3, 0, 0]] [⟨1, 0, 0, 0⟩, ⟨1, 0, 0, 0⟩, ⟨1, 0, 0, 0⟩]
      ((List.range m).map fun j => j % 3) (sentBy 1 ((Threads.start exThree true).exec near ([.publish (some 2)] ++ .spin :: after)).log)) ∧
    ∃ ks, Publishing exThree [5000000000, 6000000000, 7000000000] [![1, 0, 0], ![2, 0, 0], ![3, 0, 0]] [⟨1, 0, 0, 0⟩, ⟨1, 0, 0, 0⟩, ⟨1, 0, 0, 0⟩] ks
      (sentBy 1 ((Threads.start exThree true).exec near ([.publish (some 2)] ++ .spin :: after)).log) ∧ stepsOf 1 after ≤ 12 * ks.length + 3 :=
  ⟨(C92_one_loop near (exThree_playable 0 false) rfl rfl true [.publish (some 2)] after (by simp) ha (i := 1) rfl).1,
    C92_progress near (exThree_playable 0 false) rfl rfl rfl true [.publish (some 2)] after (by simp) ha' (i := 1) rfl⟩

/-- `publish(2)` while a loop is running (`C92_publish`). -/
example (near : NearestFn) (after : List TEv) (h5 : 5 ≤ stepsOf 1 after) :
    ShowsSample exThree [5000000000, 6000000000, 7000000000] [![1, 0, 0], ![2, 0, 0], ![3, 0, 0]] [⟨1, 0, 0, 0⟩, ⟨1, 0, 0, 0⟩, ⟨1, 0, 0, 0⟩] 2
      (sentBy 1 ((Threads.start exThree true).exec near ([.spin] ++ .publish (some 2) :: after)).log) :=
  (C92_publish near (exThree_playable 0 false) rfl true [.spin] after (k := 2) (by simp) (by simp) (by simp) (i := 1) rfl).2 h5

/-- A broadcaster that follows "cam" (`C92_follows`). -/
example (near : NearestFn) (hn : NearestLaw near) (after : List TEv) (h5 : 5 ≤ stepsOf 1 after) :
    ∃ k, NearestSample [5000000000, 6000000000] 5900000000 k ∧
    Publishes { exB with subscribed := some (some "cam") } [5000000000, 6000000000] [![1, 0, 0], ![2, 0, 0]] [⟨1, 0, 0, 0⟩, ⟨1, 0, 0, 0⟩] [k]
      (sentBy 1 ((Threads.start { exB with subscribed := some (some "cam") } true).exec near ([.spin] ++
        .incoming [⟨⟨5900000000, some "map"⟩, some "cam", ⟨⟨0, 0, 0⟩, ⟨0, 0, 0, 1⟩⟩⟩] :: after)).log) := by
  obtain ⟨answered, rest, ks, h1, h2, _, h3⟩ := C92_follows near hn (exB_playable 0 false (some (some "cam"))) (by simp) rfl rfl true [.spin] after
    [⟨⟨5900000000, some "map"⟩, some "cam", ⟨⟨0, 0, 0⟩, ⟨0, 0, 0, 1⟩⟩⟩] (i := 1) rfl
  simp only [decide_true, List.filter_cons_of_pos, List.filter_nil, List.length_singleton] at h1 h3
  obtain ⟨hr, h4⟩ := h3 h5
  subst hr
  rw [List.append_nil] at h1
  subst h1
  rcases h2 with _ | ⟨h2, _ | _⟩
  exact ⟨_, h2, h4⟩

end RBM.Props
