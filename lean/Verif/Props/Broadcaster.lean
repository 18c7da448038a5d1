import Verif.Spec.Ros
import Verif.Props.RosMsg

/-!
C50, C59, C63: the transform broadcaster.
-/

namespace RBM.Props

open RBM RBM.Ros RBM.Spec

section

variable {b : Broadcaster} {ns : List ℕ} {tl : List Vec} {rl : List Quat}

theorem pyGet_nat {α : Type _} (l : List α) {k : ℕ} {x : α} (h : l[k]? = some x) : pyGet l (k : ℤ) = .ok x := by
  simp only [pyGet]
  rw [if_neg (by omega)]
  simp only [Int.toNat_natCast, h]
  rw [if_neg (by omega)]

theorem pyGet_neg {α : Type _} (l : List α) {k : ℕ} {x : α} (h : l[k]? = some x) : pyGet l ((k : ℤ) - l.length) = .ok x := by
  have hk : k < l.length := by rw [List.getElem?_eq_some_iff] at h; exact h.1
  simp only [pyGet]
  rw [if_pos (by omega), show (((k : ℤ) - l.length + l.length)).toNat = k by omega]
  simp only [h]
  rw [if_neg (by omega)]

theorem pyGet_out {α : Type _} (l : List α) {k : ℤ} (h : k < -(l.length : ℤ) ∨ (l.length : ℤ) ≤ k) : pyGet l k = .error .indexError := by
  simp only [pyGet]
  rcases h with h | h
  · rw [if_pos (by omega)]
    cases l[(k + l.length).toNat]? with
    | none => rfl
    | some x => simp [h]
  · rw [if_neg (by omega), List.getElem?_eq_none (by omega)]

theorem pyGet_mod {α : Type _} (l : List α) {k : ℤ} {x : α} (h1 : -(l.length : ℤ) ≤ k) (h2 : k < l.length)
    (h : l[(k % l.length).toNat]? = some x) : pyGet l k = .ok x := by
  by_cases hk : k < 0
  · have e : k % l.length = k + l.length := by
      rw [← Int.add_emod_right]; exact Int.emod_eq_of_lt (by omega) (by omega)
    rw [e] at h
    have := pyGet_neg l h
    rwa [show (((k + l.length).toNat : ℤ) - l.length) = k by omega] at this
  · have e : k % l.length = k := Int.emod_eq_of_lt (by omega) h2
    rw [e] at h
    have := pyGet_nat l h
    rwa [show ((k.toNat : ℕ) : ℤ) = k by omega] at this

theorem ns_time (n : ℕ) : (n : ℝ) / 1000000000 ≥ 0 := by positivity

theorem header_ns (n : ℕ) (f : Option String) : mkHeader f ((n : ℝ) / 1000000000) = .ok ⟨n, f⟩ := by
  obtain ⟨s, h1, _, _, h2⟩ := C49_stamp (ns_time n) f
  rw [h1, (h2 n rfl).1]

theorem sampleMsgs_ok (b : Broadcaster) (t : Vec) (r : Quat) (n : ℕ) :
    sampleMsgs b t r ((n : ℝ) / 1000000000) = .ok ([.tf ⟨⟨n, b.baseName⟩, b.frameName, ⟨xyz t, xyzw r⟩⟩] ++
      (if b.pose then [.pose ⟨⟨n, b.baseName⟩, ⟨xyz t, xyzw r⟩⟩] else [])) := by
  simp only [sampleMsgs, makeTransformMsg, makePoseMsg, header_ns, bind, Except.bind, vecList, quatList, mkXYZ, mkXYZW, at',
    List.getElem?_cons_succ, List.getElem?_cons_zero, Pure.pure, Except.pure]
  split_ifs <;> rfl

theorem header_zero (f : Option String) : mkHeader f 0 = .ok ⟨0, f⟩ := by
  have := header_ns 0 f
  simpa using this

theorem ndRows_get {a : ND ℝ} {n k : ℕ} (h : a.shape = [n, 3]) (hk : k < n) : (ndRows a)[k]? = some [a.get [k, 0], a.get [k, 1], a.get [k, 2]] := by
  simp [ndRows, h, hk]

/-- Publishing with an index in range sends the messages of that sample. -/
theorem publish_ok (hb : Playable b ns tl rl) {idx : Option ℤ} {k : ℤ} (hk : (if idx.getD 0 = 0 then b.idx else idx.getD 0) = k)
    (h1 : -(ns.length : ℤ) ≤ k) (h2 : k < ns.length) :
    ∃ ms, b.publish idx = (ms, .ok ()) ∧ ShowsSample b ns tl rl (k % ns.length).toNat ms := by
  have hpos : 0 < ns.length := List.length_pos_iff.mpr hb.nonempty
  have hj : (k % ns.length).toNat < ns.length := by
    have := Int.emod_lt_of_pos k (show (0 : ℤ) < ns.length by omega)
    have := Int.emod_nonneg k (show (ns.length : ℤ) ≠ 0 by omega)
    omega
  set j := (k % ns.length).toNat with hjd
  obtain ⟨n, hn⟩ : ∃ n, ns[j]? = some n := ⟨_, List.getElem?_eq_getElem hj⟩
  obtain ⟨t, ht⟩ : ∃ t, tl[j]? = some t := ⟨_, List.getElem?_eq_getElem (by rw [hb.tlen]; exact hj)⟩
  obtain ⟨r, hr⟩ : ∃ r, rl[j]? = some r := ⟨_, List.getElem?_eq_getElem (by rw [hb.rlen]; exact hj)⟩
  have e1 : pyGet (ns.map fun n : ℕ => (n : ℝ)) k = .ok (n : ℝ) := by
    apply pyGet_mod
    · simpa using h1
    · simpa using h2
    · rw [List.length_map, ← hjd]; simp [hn]
  have e2 : pyGet tl k = .ok t := pyGet_mod _ (by rw [hb.tlen]; exact h1) (by rw [hb.tlen]; exact h2) (by rw [hb.tlen, ← hjd]; exact ht)
  have e3 : pyGet rl k = .ok r := pyGet_mod _ (by rw [hb.rlen]; exact h1) (by rw [hb.rlen]; exact h2) (by rw [hb.rlen, ← hjd]; exact hr)
  have e4 : movingMsgs b (ns.map fun n : ℕ => (n : ℝ)) k = .ok ([.tf ⟨⟨n, b.baseName⟩, b.frameName, ⟨xyz t, xyzw r⟩⟩] ++
      (if b.pose then [.pose ⟨⟨n, b.baseName⟩, ⟨xyz t, xyzw r⟩⟩] else [])) := by
    simp only [movingMsgs, e1, bind, Except.bind, hb.translation, hb.rotation, e2, e3, sampleMsgs_ok]
  cases htw : b.twist with
  | none =>
    refine ⟨_, ?_, n, t, r, hn, ht, hr, rfl⟩
    simp only [Broadcaster.publish, hb.stamps, hk, e4, htw]
    simp
  | some p =>
    obtain ⟨lin, ang⟩ := p
    obtain ⟨s1, s2⟩ := hb.twist lin ang htw
    have len : ∀ a : ND ℝ, a.shape = [ns.length, 3] → (ndRows a).length = ns.length := by
      intro a ha; simp [ndRows, ha]
    have l1 : pyGet (ndRows lin) k = .ok _ := pyGet_mod _ (by rw [len _ s1]; exact h1) (by rw [len _ s1]; exact h2)
      (by rw [len _ s1, ← hjd]; exact ndRows_get s1 hj)
    have l2 : pyGet (ndRows ang) k = .ok _ := pyGet_mod _ (by rw [len _ s2]; exact h1) (by rw [len _ s2]; exact h2)
      (by rw [len _ s2, ← hjd]; exact ndRows_get s2 hj)
    have e5 : twistMsg b k lin ang = .ok (.twist ⟨⟨0, b.frameName⟩, ⟨rowXyz lin j, rowXyz ang j⟩⟩) := by
      simp only [twistMsg, l1, l2, bind, Except.bind, makeTwistMsg, header_zero, mkXYZ, Pure.pure, Except.pure]
      rfl
    refine ⟨_, ?_, n, t, r, hn, ht, hr, rfl⟩
    simp only [Broadcaster.publish, hb.stamps, hk, e4, htw, e5]

/-- Everything but the index and the stop flag stays. -/
structure Same (b b' : Broadcaster) : Prop where
  frameName : b'.frameName = b.frameName
  baseName : b'.baseName = b.baseName
  translation : b'.translation = b.translation
  rotation : b'.rotation = b.rotation
  timestamps : b'.timestamps = b.timestamps
  pose : b'.pose = b.pose
  twist : b'.twist = b.twist
  subscribed : b'.subscribed = b.subscribed

theorem Same.refl (b : Broadcaster) : Same b b := ⟨rfl, rfl, rfl, rfl, rfl, rfl, rfl, rfl⟩

theorem Same.upd {b b' : Broadcaster} (h : Same b b') (i : ℤ) (st : Bool) : Same b { b' with idx := i, stopped := st } :=
  ⟨h.1, h.2, h.3, h.4, h.5, h.6, h.7, h.8⟩

theorem Same.playable {b b' : Broadcaster} (h : Same b b') (hb : Playable b ns tl rl) : Playable b' ns tl rl :=
  ⟨hb.nonempty, by rw [h.timestamps]; exact hb.stamps, by rw [h.translation]; exact hb.translation, by rw [h.rotation]; exact hb.rotation, hb.tlen, hb.rlen,
   by rw [h.twist]; exact hb.twist⟩

theorem Same.shows {b b' : Broadcaster} (h : Same b b') {k : ℕ} {ms : List OutMsg} (hs : ShowsSample b' ns tl rl k ms) : ShowsSample b ns tl rl k ms := by
  unfold ShowsSample at hs ⊢
  rw [h.frameName, h.baseName, h.pose, h.twist] at hs
  exact hs

/-- Invariant of a broadcaster that is not subscribed. -/
structure Inv (b : Broadcaster) (ns : List ℕ) (tl : List Vec) (rl : List Quat) (σ : Sys) : Prop where
  same : Same b σ.b
  idx : σ.b.idx = (σ.sleeps.length : ℤ) % ns.length
  count : (published .loop σ.log).length = σ.sleeps.length + (if σ.pc = .advance then 1 else 0)
  shown : ∀ (j : ℕ) ms, (published .loop σ.log)[j]? = some ms → ShowsSample b ns tl rl (j % ns.length) ms
  slept : ∀ (j : ℕ) d, σ.sleeps.reverse[j]? = some d → ∀ x y, ns[j % ns.length]? = some x → ns[(j + 1) % ns.length]? = some y →
    d = if (j + 1) % ns.length = 0 then 0 else if σ.datetime then ((y : ℝ) - x) / 1000000000 else (y : ℝ) - x

theorem published_cons (o p : Origin) (ms : List OutMsg) (log : List (Origin × List OutMsg)) :
    published o ((p, ms) :: log) = published o log ++ if p = o then [ms] else [] := by
  simp only [published, List.reverse_cons, List.filter_append, List.map_append]
  by_cases h : p = o <;> simp [h]

theorem inv_step (near : NearestFn) (hb : Playable b ns tl rl) (hsub : b.subscribed = none) {σ : Sys} (h : Inv b ns tl rl σ) (e : Ev) :
    Inv b ns tl rl (σ.step near e) := by
  have hn : 0 < ns.length := List.length_pos_iff.mpr hb.nonempty
  have hts : σ.b.timestamps = some (ns.map fun n : ℕ => (n : ℝ)) := by rw [h.same.timestamps]; exact hb.stamps
  have hsub' : σ.b.subscribed = none := by rw [h.same.subscribed]; exact hsub
  have other : ∀ (o : Origin) (r : Sent), o ≠ .loop → Inv b ns tl rl (σ.record o r) := by
    intro o r ho
    refine ⟨h.same, h.idx, ?_, ?_, h.slept⟩
    · simp only [Sys.record, published_cons, if_neg ho, List.append_nil]; exact h.count
    · simp only [Sys.record, published_cons, if_neg ho, List.append_nil]; exact h.shown
  cases e with
  | spin =>
    simp only [Sys.step, hts]
    split_ifs with hp
    · refine ⟨h.same, h.idx, ?_, h.shown, h.slept⟩
      have := h.count
      rw [hp] at this
      simpa using this
    · exact h
  | stop => exact ⟨h.same.upd _ _, h.idx, h.count, h.shown, h.slept⟩
  | shutdown => exact ⟨h.same, h.idx, h.count, h.shown, h.slept⟩
  | publish idx => exact other .user _ (by decide)
  | incoming ms => simp only [Sys.step, hsub']; exact h
  | run =>
    simp only [Sys.step, Sys.runStep]
    cases hpc : σ.pc with
    | idle => simpa [hpc] using h
    | starting =>
      simp only
      refine ⟨h.same.upd _ _, h.idx, ?_, h.shown, h.slept⟩
      have := h.count
      rw [hpc] at this
      simp only [hsub', hts, Option.isNone_none, Option.isSome_some, and_self, if_true]
      simpa using this
    | waiting =>
      simp only
      split_ifs
      · refine ⟨h.same.upd _ _, h.idx, ?_, h.shown, h.slept⟩
        have := h.count
        rw [hpc] at this
        simpa using this
      · exact h
    | check =>
      simp only
      have hc := h.count
      rw [hpc] at hc
      simp only [reduceCtorEq, if_false, Nat.add_zero] at hc
      split_ifs with hst
      · exact ⟨h.same.upd _ _, h.idx, by simpa using hc, h.shown, h.slept⟩
      · have hj := Int.emod_nonneg (σ.sleeps.length : ℤ) (show (ns.length : ℤ) ≠ 0 by omega)
        have hj' := Int.emod_lt_of_pos (σ.sleeps.length : ℤ) (show (0 : ℤ) < ns.length by omega)
        obtain ⟨ms, e1, e2⟩ := publish_ok (h.same.playable hb) (idx := none) (k := σ.b.idx) (by simp) (by rw [h.idx]; omega) (by rw [h.idx]; omega)
        rw [e1]
        refine ⟨h.same, h.idx, ?_, ?_, h.slept⟩
        · simp only [Sys.record, published_cons, if_true, List.length_append, List.length_singleton, hc]
        · intro j ms' hms
          simp only [Sys.record, published_cons, if_true] at hms
          rw [List.getElem?_append] at hms
          split_ifs at hms with hlt
          · exact h.shown j ms' hms
          · have h0 : j = σ.sleeps.length := by
              have := (List.getElem?_eq_some_iff.mp hms).1
              simp only [List.length_singleton] at this
              omega
            subst h0
            rw [hc, Nat.sub_self] at hms
            simp only [List.getElem?_cons_zero, Option.some.injEq] at hms
            subst hms
            have := h.same.shows e2
            rw [h.idx, Int.emod_emod_of_dvd _ (dvd_refl _)] at this
            rwa [show ((σ.sleeps.length : ℤ) % ns.length).toNat = σ.sleeps.length % ns.length by omega] at this
    | advance =>
      have hc := h.count
      rw [hpc] at hc
      simp only [if_true] at hc
      have hk : (σ.b.idx + 1) % (ns.length : ℤ) = ((σ.sleeps.length + 1) % ns.length : ℕ) := by
        rw [h.idx, Int.emod_add_emod]; push_cast; rfl
      set m := (σ.sleeps.length + 1) % ns.length with hm
      have hml : m < ns.length := Nat.mod_lt _ hn
      have hsl : ∃ d, sleepTime σ.datetime (ns.map fun n : ℕ => (n : ℝ)) (m : ℤ) = .ok d ∧ ∀ x y, ns[σ.sleeps.length % ns.length]? = some x → ns[m]? = some y →
          d = if m = 0 then 0 else if σ.datetime then ((y : ℝ) - x) / 1000000000 else (y : ℝ) - x := by
        by_cases h0 : m = 0
        · refine ⟨0, by simp [sleepTime, h0], fun x y _ _ => by simp [h0]⟩
        · obtain ⟨y, hy⟩ : ∃ y, ns[m]? = some y := ⟨_, List.getElem?_eq_getElem hml⟩
          have hpm : σ.sleeps.length % ns.length = m - 1 := by
            have := Nat.mod_lt σ.sleeps.length hn
            rcases Nat.lt_or_ge (σ.sleeps.length % ns.length + 1) ns.length with hlt | hge
            · have : m = σ.sleeps.length % ns.length + 1 := by rw [hm, Nat.add_mod, Nat.mod_eq_of_lt (show 1 < ns.length by omega), Nat.mod_eq_of_lt hlt]
              omega
            · exfalso
              apply h0
              rw [hm, ← Nat.mod_add_mod, show σ.sleeps.length % ns.length + 1 = ns.length by omega, Nat.mod_self]
          obtain ⟨x, hx⟩ : ∃ x, ns[m - 1]? = some x := ⟨_, List.getElem?_eq_getElem (by omega)⟩
          have g1 : pyGet (ns.map fun n : ℕ => (n : ℝ)) (m : ℤ) = .ok (y : ℝ) := pyGet_nat _ (by simp [hy])
          have g2 : pyGet (ns.map fun n : ℕ => (n : ℝ)) ((m : ℤ) - 1) = .ok (x : ℝ) := by
            have := pyGet_nat (ns.map fun n : ℕ => (n : ℝ)) (k := m - 1) (x := (x : ℝ)) (by simp [hx])
            rwa [show ((m - 1 : ℕ) : ℤ) = (m : ℤ) - 1 by omega] at this
          refine ⟨_, by rw [sleepTime, if_pos (by omega)]; simp only [g1, g2, bind, Except.bind]; rfl, ?_⟩
          intro x' y' hx' hy'
          rw [hpm, hx] at hx'
          rw [hy] at hy'
          cases hx'; cases hy'
          rw [if_neg h0]
          split_ifs <;> ring
      obtain ⟨d, hd, hd'⟩ := hsl
      have hstep : σ.runStep = { σ with b := { σ.b with idx := (m : ℤ) }, sleeps := d :: σ.sleeps, pc := .check } := by
        simp only [Sys.runStep, hpc]
        split
        · rename_i hn'; rw [hts] at hn'; cases hn'
        · rename_i ts' hn'
          rw [hts] at hn'
          cases hn'
          rw [List.length_map, hk, hd]
      have hgoal : Inv b ns tl rl σ.runStep := ?_
      · simpa only [Sys.runStep, hpc] using hgoal
      rw [hstep]
      refine ⟨h.same.upd _ _, ?_, ?_, h.shown, ?_⟩
      · simp only [List.length_cons, hm]; push_cast; rfl
      · simp only [List.length_cons]
        rw [if_neg (by decide), hc]
      · intro j d' hj x y hx hy
        simp only [List.reverse_cons, List.getElem?_append] at hj
        split_ifs at hj with hlt
        · exact h.slept j d' hj x y hx hy
        · simp only [List.length_reverse] at hlt hj
          have : j = σ.sleeps.length := by
            have := (List.getElem?_eq_some_iff.mp hj).1
            simp only [List.length_singleton] at this
            omega
          subst this
          simp only [Nat.sub_self, List.getElem?_cons_zero, Option.some.injEq] at hj
          subst hj
          exact hd' x y hx hy

theorem inv_exec (near : NearestFn) (hb : Playable b ns tl rl) (hsub : b.subscribed = none) (h0 : b.idx = 0) (dt : Bool) (evs : List Ev) :
    Inv b ns tl rl ((Sys.start b dt).exec near evs) := by
  have base : Inv b ns tl rl (Sys.start b dt) := by
    refine ⟨.refl b, ?_, rfl, fun j ms h => ?_, fun j d h => ?_⟩
    · simp [Sys.start, h0]
    · simp [Sys.start, published] at h
    · simp [Sys.start] at h
  unfold Sys.exec
  generalize Sys.start b dt = σ at base ⊢
  induction evs generalizing σ with
  | nil => exact base
  | cons e evs ih => exact ih _ (inv_step near hb hsub base e)

/-- Whatever is called in between (`spin`, `stop`, `publish`, shutdown): the loop publishes the samples 0, 1, ..., n-1, 0, 1, ... in this order,
each with its own timestamp, and sleeps for the time between the samples (not at all after the last one). -/
theorem C50_loop (near : NearestFn) (hb : Playable b ns tl rl) (hsub : b.subscribed = none) (h0 : b.idx = 0) (dt : Bool) (evs : List Ev) :
    (∀ (j : ℕ) ms, (published .loop ((Sys.start b dt).exec near evs).log)[j]? = some ms → ShowsSample b ns tl rl (j % ns.length) ms) ∧
    (∀ (j : ℕ) d, ((Sys.start b dt).exec near evs).sleeps.reverse[j]? = some d → ∀ x y, ns[j % ns.length]? = some x → ns[(j + 1) % ns.length]? = some y →
      d = if (j + 1) % ns.length = 0 then 0 else if dt then ((y : ℝ) - x) / 1000000000 else (y : ℝ) - x) := by
  have h := inv_exec near hb hsub h0 dt evs
  refine ⟨h.shown, ?_⟩
  have e : ((Sys.start b dt).exec near evs).datetime = dt := by
    have : ∀ (evs : List Ev) (σ : Sys), (σ.exec near evs).datetime = σ.datetime := by
      intro evs
      induction evs with
      | nil => intro σ; rfl
      | cons e evs ih =>
        intro σ
        show ((σ.step near e).exec near evs).datetime = _
        rw [ih]
        cases e <;> simp only [Sys.step, Sys.record, Sys.runStep] <;> (repeat' split) <;> rfl
    exact this evs _
  have := h.slept
  rw [e] at this
  exact this


/-- Number of steps of the thread in a history. -/
def runs (evs : List Ev) : ℕ := (evs.filter fun e => e matches .run).length

/-- Without `stop` and shutdown the loop makes progress: after `spin`, every second step of the thread (the first one enters the loop)
publishes one more sample, whatever else is called in between. -/
theorem C50_progress (near : NearestFn) (hb : Playable b ns tl rl) (hsub : b.subscribed = none) (h0 : b.idx = 0) (dt : Bool) (evs : List Ev)
    (hev : ∀ e ∈ evs, e ≠ .stop ∧ e ≠ .shutdown) :
    (published .loop ((Sys.start b dt).exec near (.spin :: evs)).log).length = runs evs / 2 := by
  have hn : 0 < ns.length := List.length_pos_iff.mpr hb.nonempty
  have key : ∀ (evs : List Ev), (∀ e ∈ evs, e ≠ .stop ∧ e ≠ .shutdown) → ∀ (σ : Sys) (r : ℕ), Inv b ns tl rl σ →
      σ.shutdown = false → (r = 0 ∧ σ.pc = .starting ∨ r % 2 = 1 ∧ σ.pc = .check ∧ σ.b.stopped = false ∨
        r ≠ 0 ∧ r % 2 = 0 ∧ σ.pc = .advance ∧ σ.b.stopped = false) →
      (published .loop σ.log).length = r / 2 → (published .loop (σ.exec near evs).log).length = (r + runs evs) / 2 := by
    intro evs
    induction evs with
    | nil => intro _ σ r _ _ _ h; simpa [runs, Sys.exec] using h
    | cons e evs ih =>
      intro hev σ r hi hs hpc hl
      have he := hev e (by simp)
      have ih := ih (fun e he => hev e (by simp [he]))
      have hi' := inv_step near hb hsub hi e
      have hts : σ.b.timestamps = some (ns.map fun n : ℕ => (n : ℝ)) := by rw [hi.same.timestamps]; exact hb.stamps
      have hsub' : σ.b.subscribed = none := by rw [hi.same.subscribed]; exact hsub
      show (published .loop ((σ.step near e).exec near evs).log).length = _
      cases e with
      | stop => simp at he
      | shutdown => simp at he
      | spin =>
        have hr : runs (.spin :: evs) = runs evs := by simp [runs]
        rw [hr]
        have hne : σ.pc ≠ .idle := by rcases hpc with h | h | h <;> simp [h]
        have hst : σ.step near .spin = σ := by simp only [Sys.step, hts, if_neg hne]
        rw [hst]
        exact ih σ r hi hs hpc hl
      | publish i =>
        have hr : runs (.publish i :: evs) = runs evs := by simp [runs]
        rw [hr]
        refine ih _ r hi' hs hpc ?_
        simp only [Sys.step, Sys.record, published_cons]
        simpa using hl
      | incoming ms =>
        have hr : runs (.incoming ms :: evs) = runs evs := by simp [runs]
        have hst : σ.step near (.incoming ms) = σ := by simp only [Sys.step, hsub']
        rw [hr, hst]
        exact ih σ r hi hs hpc hl
      | run =>
        have hr : r + runs (.run :: evs) = (r + 1) + runs evs := by simp [runs]; omega
        rw [hr]
        rcases hpc with ⟨h1, h2⟩ | ⟨h1, h2, h3⟩ | ⟨h1, h2, h3, h4⟩
        · refine ih _ (r + 1) hi' ?_ (.inr (.inl ⟨by omega, ?_, ?_⟩)) ?_
          · simp only [Sys.step, Sys.runStep, h2, hs]
          · simp only [Sys.step, Sys.runStep, h2, hsub', hts]; simp
          · simp only [Sys.step, Sys.runStep, h2]
          · simp only [Sys.step, Sys.runStep, h2, hl]; omega
        · have hj := Int.emod_nonneg (σ.sleeps.length : ℤ) (show (ns.length : ℤ) ≠ 0 by omega)
          have hj' := Int.emod_lt_of_pos (σ.sleeps.length : ℤ) (show (0 : ℤ) < ns.length by omega)
          obtain ⟨ms, e1, e2⟩ := publish_ok (hi.same.playable hb) (idx := none) (k := σ.b.idx) (by simp) (by rw [hi.idx]; omega) (by rw [hi.idx]; omega)
          have hst : σ.step near .run = { σ.record .loop (ms, .ok ()) with pc := .advance } := by
            simp only [Sys.step, Sys.runStep, h2, hs, h3, e1]
            simp
          refine ih _ (r + 1) hi' ?_ (.inr (.inr ⟨by omega, by omega, ?_, ?_⟩)) ?_
          · rw [hst]; exact hs
          · rw [hst]
          · rw [hst]; exact h3
          · rw [hst]
            simp only [Sys.record, published_cons, if_true, List.length_append, List.length_singleton, hl]
            omega
        · have hc := hi'.count
          have hst : (σ.step near .run).log = σ.log ∧ (σ.step near .run).shutdown = σ.shutdown ∧ (σ.step near .run).b.stopped = false ∧
              (σ.step near .run).pc = .check := by
            have hj := Int.emod_nonneg (σ.sleeps.length : ℤ) (show (ns.length : ℤ) ≠ 0 by omega)
            obtain ⟨d, hd⟩ : ∃ d, sleepTime σ.datetime (ns.map fun n : ℕ => (n : ℝ)) ((σ.b.idx + 1) % ns.length) = .ok d := by
              have k1 := Int.emod_nonneg (σ.b.idx + 1) (show (ns.length : ℤ) ≠ 0 by omega)
              have k2 := Int.emod_lt_of_pos (σ.b.idx + 1) (show (0 : ℤ) < ns.length by omega)
              generalize (σ.b.idx + 1) % (ns.length : ℤ) = k at k1 k2
              rw [sleepTime]
              by_cases hk : k > 0
              · rw [if_pos hk]
                obtain ⟨m, rfl⟩ : ∃ m : ℕ, k = m := ⟨k.toNat, by omega⟩
                have hm : m < (ns.map fun n : ℕ => (n : ℝ)).length := by rw [List.length_map]; omega
                have hm' : m - 1 < (ns.map fun n : ℕ => (n : ℝ)).length := by omega
                have g1 := pyGet_nat _ (List.getElem?_eq_getElem hm)
                have g2 := pyGet_nat _ (List.getElem?_eq_getElem hm')
                rw [show ((m - 1 : ℕ) : ℤ) = (m : ℤ) - 1 by omega] at g2
                exact ⟨_, by simp only [g1, g2, bind, Except.bind]; rfl⟩
              · exact ⟨0, if_neg hk⟩
            have : σ.step near .run = { σ with b := { σ.b with idx := (σ.b.idx + 1) % (ns.length : ℤ) }, sleeps := d :: σ.sleeps, pc := .check } := by
              simp only [Sys.step, Sys.runStep, h3]
              split
              · rename_i hn'; rw [hts] at hn'; cases hn'
              · rename_i ts' hn'
                rw [hts] at hn'
                cases hn'
                rw [List.length_map, hd]
            rw [this]
            exact ⟨rfl, rfl, h4, rfl⟩
          refine ih _ (r + 1) hi' (by rw [hst.2.1]; exact hs) (.inr (.inl ⟨by omega, hst.2.2.2, hst.2.2.1⟩)) ?_
          rw [hst.1, hl]
          omega
  have hst : (Sys.start b dt).step near .spin = { Sys.start b dt with pc := .starting } := by
    simp [Sys.step, Sys.start, hb.stamps]
  have hi := inv_exec near hb hsub h0 dt [.spin]
  have := key evs hev ((Sys.start b dt).step near .spin) 0 hi (by rw [hst]; rfl) (.inl ⟨rfl, by rw [hst]⟩) (by rw [hst]; rfl)
  rw [Nat.zero_add] at this
  exact this

/-- A call of `publish` with an index other than zero: the sample with this index, counted from the end if it is negative. -/
theorem C50_publish_partial (hb : Playable b ns tl rl) {k : ℤ} (h0 : k ≠ 0) (h1 : -(ns.length : ℤ) ≤ k) (h2 : k < ns.length) :
    ∃ ms, b.publish (some k) = (ms, .ok ()) ∧ ShowsSample b ns tl rl (k % ns.length).toNat ms :=
  publish_ok hb (by simp [h0]) h1 h2

/-- Without an index: the sample with the index of the broadcaster. -/
theorem C50_publish_default (hb : Playable b ns tl rl) {k : ℕ} (hk : b.idx = k) (h : k < ns.length) :
    ∃ ms, b.publish = (ms, .ok ()) ∧ ShowsSample b ns tl rl k ms := by
  obtain ⟨ms, e, hs⟩ := publish_ok hb (idx := none) (k := (k : ℤ)) (by simp [hk]) (by omega) (by omega)
  rw [show ((k : ℤ) % ns.length).toNat = k by rw [Int.emod_eq_of_lt (by omega) (by omega)]; rfl] at hs
  exact ⟨ms, e, hs⟩

/-- An index out of range is an `IndexError`, and nothing is sent. -/
theorem C50_publish_out_of_range (hb : Playable b ns tl rl) {k : ℤ} (h : k < -(ns.length : ℤ) ∨ (ns.length : ℤ) ≤ k) :
    b.publish (some k) = ([], .error .indexError) := by
  have hn : 0 < ns.length := List.length_pos_iff.mpr hb.nonempty
  have h0 : k ≠ 0 := by omega
  have e : pyGet (ns.map fun n : ℕ => (n : ℝ)) k = .error .indexError := pyGet_out _ (by simpa using h)
  simp only [Broadcaster.publish, hb.stamps, Option.getD_some, if_neg h0, movingMsgs, e, bind, Except.bind]

/-- `publish(0)` publishes the sample with the index of the broadcaster, not sample 0. -/
theorem C50_publish_zero (b : Broadcaster) : b.publish (some 0) = b.publish none := by
  simp [Broadcaster.publish]

/-- A static frame: every call sends the one transform (and the pose) with time zero; `spin` does the same and starts no thread. -/
theorem C50_static (near : NearestFn) {t : Vec} {r : Quat} (h1 : b.timestamps = none) (h2 : b.translation = .one t) (h3 : b.rotation = .one r)
    (h4 : b.twist = none) (dt : Bool) (idx : Option ℤ) :
    b.publish idx = ([.tf ⟨⟨0, b.baseName⟩, b.frameName, ⟨xyz t, xyzw r⟩⟩] ++
      (if b.pose then [.pose ⟨⟨0, b.baseName⟩, ⟨xyz t, xyzw r⟩⟩] else []), .ok ()) ∧
    (Sys.start b dt).step near .spin = { Sys.start b dt with log := [(.user, (b.publish idx).1)] } := by
  have e : ∀ idx, b.publish idx = ([.tf ⟨⟨0, b.baseName⟩, b.frameName, ⟨xyz t, xyzw r⟩⟩] ++
      (if b.pose then [.pose ⟨⟨0, b.baseName⟩, ⟨xyz t, xyzw r⟩⟩] else []), .ok ()) := by
    intro idx
    have := sampleMsgs_ok b t r 0
    simp only [Nat.cast_zero, zero_div] at this
    simp only [Broadcaster.publish, h1, h2, h3, h4, this, Option.isSome_none]
    rfl
  refine ⟨e idx, ?_⟩
  simp only [Sys.step, Sys.start, h1, Sys.record, e]

end

/-! ### An example -/

/-- Two samples, at 5 s and 6 s. -/
noncomputable def exB : Broadcaster where
  frameName := some "rb"
  baseName := some "world"
  translation := .many [![1, 0, 0], ![2, 0, 0]]
  rotation := .many [⟨1, 0, 0, 0⟩, ⟨1, 0, 0, 0⟩]
  timestamps := some [5000000000, 6000000000]
  pose := true
  twist := none
  subscribed := none
  idx := 0
  stopped := false

theorem exB_playable (i : ℤ) (st : Bool) (sub : Option (Option String)) :
    Playable { exB with idx := i, stopped := st, subscribed := sub } [5000000000, 6000000000] [![1, 0, 0], ![2, 0, 0]] [⟨1, 0, 0, 0⟩, ⟨1, 0, 0, 0⟩] where
  nonempty := by simp
  stamps := by simp [exB]
  translation := rfl
  rotation := rfl
  tlen := rfl
  rlen := rfl
  twist := by simp [exB]

/-- `publish(i)` does not always publish sample `i`: with the broadcaster of the example at index 1, `publish(0)` publishes sample 1. -/
theorem C50_publish_zero_is_false : ∃ (b : Broadcaster) (ns : List ℕ) (tl : List Vec) (rl : List Quat) (ms : List OutMsg),
    Playable b ns tl rl ∧ b.publish (some 0) = (ms, .ok ()) ∧ ¬ ShowsSample b ns tl rl 0 ms := by
  have hp := exB_playable 1 false none
  obtain ⟨ms, e, n, t, r, h1, h2, h3, h4⟩ := C50_publish_default hp (k := 1) rfl (by simp)
  refine ⟨_, _, _, _, ms, hp, (C50_publish_zero _).trans e, ?_⟩
  rintro ⟨n', t', r', g1, g2, g3, g4⟩
  simp only [List.getElem?_cons_zero, List.getElem?_cons_succ, Option.some.injEq] at h1 g1
  subst h1; subst g1
  rw [h4] at g4
  simp at g4

/-- The hypotheses of `C50_loop` and `C50_progress` are met, and five steps of the thread publish two samples. -/
example (near : NearestFn) : (published .loop ((Sys.start exB true).exec near (.spin :: List.replicate 5 .run)).log).length = 2 :=
  C50_progress near (exB_playable 0 false none) rfl rfl true _ (by simp)

/-- One round of the loop over two samples: what is published and how long it sleeps (`C50_loop`). -/
example (near : NearestFn) : ∃ ms, (published .loop ((Sys.start exB true).exec near (.spin :: List.replicate 5 .run)).log)[1]? = some ms ∧
    ShowsSample exB [5000000000, 6000000000] [![1, 0, 0], ![2, 0, 0]] [⟨1, 0, 0, 0⟩, ⟨1, 0, 0, 0⟩] 1 ms := by
  have hl := C50_progress near (exB_playable 0 false none) rfl rfl true (List.replicate 5 .run) (by simp)
  have h1 := (C50_loop near (exB_playable 0 false none) rfl rfl true (.spin :: List.replicate 5 .run)).1 1
  obtain ⟨ms, hms⟩ : ∃ ms, (published .loop ((Sys.start exB true).exec near (.spin :: List.replicate 5 .run)).log)[1]? = some ms :=
    ⟨_, List.getElem?_eq_getElem (by
      have : (published .loop ((Sys.start exB true).exec near (.spin :: List.replicate 5 .run)).log).length = 2 := hl
      rw [this]; norm_num)⟩
  exact ⟨ms, hms, h1 ms hms⟩

/-- `publish(-1)` shows the last sample, `publish(2)` is out of range. -/
example : (∃ ms, exB.publish (some (-1)) = (ms, .ok ()) ∧
      ShowsSample exB [5000000000, 6000000000] [![1, 0, 0], ![2, 0, 0]] [⟨1, 0, 0, 0⟩, ⟨1, 0, 0, 0⟩] 1 ms) ∧
    exB.publish (some 2) = ([], .error .indexError) :=
  ⟨C50_publish_partial (exB_playable 0 false none) (k := -1) (by norm_num) (by simp) (by simp),
    C50_publish_out_of_range (exB_playable 0 false none) (k := 2) (.inr (by simp))⟩

/-- A broadcaster of a static transform publishes it once (`C50_static`). -/
example (near : NearestFn) : ((Sys.start { exB with timestamps := none, translation := .one ![1, 0, 0], rotation := .one 1 } true).step near .spin).log.length = 1 := by
  rw [(C50_static (b := { exB with timestamps := none, translation := .one ![1, 0, 0], rotation := .one 1 }) near rfl rfl rfl rfl true none).2]
  rfl

end RBM.Props
