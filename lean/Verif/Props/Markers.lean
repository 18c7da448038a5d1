import Verif.Spec.Marker
import Verif.Props.RosMsg
import Verif.Props.VelocityExamples

/-!
C51, C52, C59, C62: markers and marker publishers.
-/

namespace RBM.Props

open RBM RBM.Ros RBM.Spec

/-! ### C62: colours and markers -/

theorem hexVal_digit {c : Char} {d : ℕ} (h : IsHexDigit c d) : hexVal c = some d ∧ c ≠ '#' ∧ c.isWhitespace = false := by
  have hd : d < 16 := by
    rcases h with h | h
    · exact (List.getElem?_eq_some_iff.mp h).1
    · exact (List.getElem?_eq_some_iff.mp h).1
  have key : ∀ l : List Char, l = "0123456789abcdef".toList ∨ l = "0123456789ABCDEF".toList → ∀ d : Fin 16, ∀ c, l[(d : ℕ)]? = some c →
      hexVal c = some (d : ℕ) ∧ c ≠ '#' ∧ c.isWhitespace = false := by
    intro l hl d c hc
    rcases hl with rfl | rfl <;> (fin_cases d <;> (simp at hc; subst hc; decide))
  rcases h with h | h
  · exact key _ (.inl rfl) ⟨d, hd⟩ c h
  · exact key _ (.inr rfl) ⟨d, hd⟩ c h

theorem pyHex_byte {s : List Char} {n : ℕ} (h : IsHexByte s n) : pyHex s = .ok (n : ℤ) := by
  obtain ⟨c, d, x, y, rfl, h1, h2, rfl⟩ := h
  obtain ⟨a1, a2, a3⟩ := hexVal_digit h1
  obtain ⟨b1, b2, b3⟩ := hexVal_digit h2
  simp [pyHex, a1, b1, a3, b3]

/-- `hex_to_rgba` reads `#RRGGBBAA` (the `#` may be missing), in lower or upper case: every channel is its byte divided by 255. -/
theorem C62_color {r g b a : List Char} {nr ng nb na : ℕ} (hr : IsHexByte r nr) (hg : IsHexByte g ng) (hb : IsHexByte b nb) (ha : IsHexByte a na)
    (k : ℕ) (rest : List Char) : hexToRgba (List.replicate k '#' ++ (r ++ g ++ b ++ a) ++ rest) = .ok ⟨nr / 255, ng / 255, nb / 255, na / 255⟩ := by
  have er := pyHex_byte hr; have eg := pyHex_byte hg; have eb := pyHex_byte hb; have ea := pyHex_byte ha
  obtain ⟨c1, d1, x1, y1, rfl, h1, _, _⟩ := hr
  obtain ⟨c2, d2, _, _, rfl, _⟩ := hg
  obtain ⟨c3, d3, _, _, rfl, _⟩ := hb
  obtain ⟨c4, d4, _, _, rfl, _⟩ := ha
  have hd : (List.replicate k '#' ++ ([c1, d1] ++ [c2, d2] ++ [c3, d3] ++ [c4, d4]) ++ rest).dropWhile (fun c => decide (c = '#')) =
      c1 :: d1 :: c2 :: d2 :: c3 :: d3 :: c4 :: d4 :: rest := by
    induction k with
    | zero => simp [(hexVal_digit h1).2.1]
    | succ k ih => simpa [List.replicate_succ] using ih
  simp only [hexToRgba, hd, List.drop, List.take, er, eg, eb, ea, bind, Except.bind, Pure.pure, Except.pure]
  simp

/-- A colour without alpha channel (`#RRGGBB`) is a `ValueError`. -/
theorem C62_no_alpha {r g b : List Char} {nr ng nb : ℕ} (hr : IsHexByte r nr) (hg : IsHexByte g ng) (hb : IsHexByte b nb) (k : ℕ) :
    hexToRgba (List.replicate k '#' ++ (r ++ g ++ b)) = .error .valueError := by
  have er := pyHex_byte hr; have eg := pyHex_byte hg; have eb := pyHex_byte hb
  obtain ⟨c1, d1, x1, y1, rfl, h1, _, _⟩ := hr
  obtain ⟨c2, d2, _, _, rfl, _⟩ := hg
  obtain ⟨c3, d3, _, _, rfl, _⟩ := hb
  have hd : (List.replicate k '#' ++ ([c1, d1] ++ [c2, d2] ++ [c3, d3])).dropWhile (fun c => decide (c = '#')) =
      c1 :: d1 :: c2 :: d2 :: c3 :: d3 :: [] := by
    induction k with
    | zero => simp [(hexVal_digit h1).2.1]
    | succ k ih => simpa [List.replicate_succ] using ih
  have e0 : pyHex [] = .error .valueError := by simp [pyHex]
  simp only [hexToRgba, hd, List.drop, List.take, er, eg, eb, e0, bind, Except.bind]

theorem hexVal_some {c : Char} {d : ℕ} (h : hexVal c = some d) : IsHexDigit c d := by
  have key : ∀ n : ℕ, c.toNat = n → c = Char.ofNat n := fun n hn => by rw [← hn, Char.ofNat_toNat]
  unfold hexVal at h
  simp only at h
  split_ifs at h with h1 h2 h3
  · obtain ⟨a, b⟩ := h1
    have := key _ rfl
    generalize c.toNat = n at *
    injection h with h
    interval_cases n <;> (subst h; subst this; left; rfl)
  · obtain ⟨a, b⟩ := h2
    have := key _ rfl
    generalize c.toNat = n at *
    injection h with h
    interval_cases n <;> (subst h; subst this; left; rfl)
  · obtain ⟨a, b⟩ := h3
    have := key _ rfl
    generalize c.toNat = n at *
    injection h with h
    interval_cases n <;> (subst h; subst this; right; rfl)

theorem mem_strip {c : Char} {s : List Char} (hc : c ∈ s) (hw : c.isWhitespace = false) : c ∈ s.dropWhile fun c => c.isWhitespace := by
  induction s with
  | nil => simp at hc
  | cons x s ih =>
    by_cases hx : x.isWhitespace
    · rw [List.dropWhile_cons_of_pos (by simpa using hx)]
      rcases List.mem_cons.mp hc with rfl | h
      · simp [hx] at hw
      · exact ih h
    · rw [List.dropWhile_cons_of_neg (by simpa using hx)]
      exact hc

/-- A character that can be no part of a number. -/
def NoNumber (c : Char) : Prop := (∀ d, ¬ IsHexDigit c d) ∧ c.isWhitespace = false ∧ c ≠ '+' ∧ c ≠ '-'

theorem pyHex_bad {c : Char} {s : List Char} (hc : c ∈ s) (h : NoNumber c) : pyHex s = .error .valueError := by
  obtain ⟨h1, h2, h3, h4⟩ := h
  have hv : hexVal c = none := by
    cases e : hexVal c with
    | none => rfl
    | some d => exact absurd (hexVal_some e) (h1 d)
  have hm := List.mem_reverse.mpr (mem_strip (List.mem_reverse.mpr (mem_strip hc h2)) h2)
  unfold pyHex
  simp only
  generalize (List.dropWhile (fun c => c.isWhitespace) (List.dropWhile (fun c => c.isWhitespace) s).reverse).reverse = l at hm
  match l, hm with
  | [x], hm =>
    simp only [List.mem_singleton] at hm
    subst hm
    simp [hv]
  | [x, y], hm =>
    simp only [List.mem_cons, List.not_mem_nil, or_false] at hm
    rcases hm with rfl | rfl
    · cases e : hexVal y <;> simp [hv, h3, h4, e]
    · cases e : hexVal x <;> simp [hv, e]
  | _ :: _ :: _ :: _, _ => rfl

theorem pyHex_error {s : List Char} {e : PyErr} (h : pyHex s = .error e) : e = .valueError := by
  unfold pyHex at h
  simp only at h
  repeat' split at h
  all_goals first | (injection h with h; exact h.symm) | (injection h)

/-- Anything else than digits (or signs and white space, which Python accepts) among the eight characters after the `#` is a `ValueError`. -/
theorem C62_not_hex {s : List Char} {k : ℕ} (hs : s.head? ≠ some '#') {c : Char} (hc : c ∈ s.take 8) (h : NoNumber c) :
    hexToRgba (List.replicate k '#' ++ s) = .error .valueError := by
  have hd : (List.replicate k '#' ++ s).dropWhile (fun c => decide (c = '#')) = s := by
    induction k with
    | zero =>
      cases s with
      | nil => rfl
      | cons x s => simp only [List.replicate_zero, List.nil_append]; rw [List.dropWhile_cons_of_neg (by simpa using hs)]
    | succ k ih => simpa [List.replicate_succ] using ih
  have e8 : s.take 8 = (s.drop 0).take 2 ++ (s.drop 2).take 2 ++ (s.drop 4).take 2 ++ (s.drop 6).take 2 := by
    rcases s with _ | ⟨_, _ | ⟨_, _ | ⟨_, _ | ⟨_, _ | ⟨_, _ | ⟨_, _ | ⟨_, _ | ⟨_, _⟩⟩⟩⟩⟩⟩⟩⟩ <;> simp
  rw [e8] at hc
  simp only [List.mem_append] at hc
  simp only [hexToRgba, hd, bind, Except.bind]
  rcases hc with ((hc | hc) | hc) | hc
  · rw [pyHex_bad hc h]
  · rw [pyHex_bad hc h]
    cases e : pyHex ((s.drop 0).take 2) with
    | error x => rw [pyHex_error e]
    | ok x => rfl
  · rw [pyHex_bad hc h]
    cases e : pyHex ((s.drop 0).take 2) with
    | error x => rw [pyHex_error e]
    | ok x =>
      cases e : pyHex ((s.drop 2).take 2) with
      | error x => simp only [pyHex_error e]
      | ok x => rfl
  · rw [pyHex_bad hc h]
    cases e : pyHex ((s.drop 0).take 2) with
    | error x => rw [pyHex_error e]
    | ok x =>
      cases e : pyHex ((s.drop 2).take 2) with
      | error x => simp only [pyHex_error e]
      | ok x =>
        cases e : pyHex ((s.drop 4).take 2) with
        | error x => simp only [pyHex_error e]
        | ok x => rfl

/-- `#gg000000` is not a colour. -/
example : hexToRgba "#gg000000".toList = .error .valueError := by
  refine C62_not_hex (s := "gg000000".toList) (k := 1) (by simp) (c := 'g') (by simp) ⟨fun d hd => ?_, by decide, by decide, by decide⟩
  have := (hexVal_digit hd).1
  simp [hexVal] at this

/-- The fields of a marker are the arguments; the scale may be one float for all directions. The type is the argument, except that
type 0 becomes 4 (a line strip). -/
theorem C62_marker_partial {type : Option ℤ} {frameId : Option String} {scale : ScaleArg} {color : List Char} {c : RGBA} {px py pz qx qy qz qw : ℝ} {s : XYZ}
    (hc : hexToRgba color = .ok c) (hs : (∃ x, scale = .float x ∧ s = ⟨x, x, x⟩) ∨ (∃ x y z, scale = .seq [x, y, z] ∧ s = ⟨x, y, z⟩)) :
    getMarker type frameId scale color [px, py, pz] [qx, qy, qz, qw] = .ok
      { type := if type = none ∨ type = some 0 then 4 else type.getD 4, frameId := frameId, scale := s, color := c, position := ⟨px, py, pz⟩,
        orientation := ⟨qx, qy, qz, qw⟩, points := [] } := by
  have h1 : scale.vec = .ok s := by rcases hs with ⟨x, rfl, rfl⟩ | ⟨x, y, z, rfl, rfl⟩ <;> rfl
  simp only [getMarker, h1, hc, mkXYZWDirect, mkXYZ, bind, Except.bind, Pure.pure, Except.pure]
  congr 2
  cases type with
  | none => simp
  | some t => by_cases h : t = 0 <;> simp [h]

/-- The requested type is not always used: type 0 (`Marker.ARROW`) gives a line strip. -/
theorem C62_type_is_false : ∃ m, getMarker (some 0) = .ok m ∧ m.type = 4 := by
  have hw : hexToRgba "#ffffffff".toList = .ok ⟨255 / 255, 255 / 255, 255 / 255, 255 / 255⟩ := by
    have hb : IsHexByte ['f', 'f'] 255 := ⟨'f', 'f', 15, 15, rfl, .inl rfl, .inl rfl, rfl⟩
    have := C62_color hb hb hb hb 1 []
    simpa using this
  exact ⟨_, C62_marker_partial hw (.inl ⟨1, rfl, rfl⟩), by simp⟩

/-- An integer is not accepted as scale. -/
theorem C62_int_scale (type : Option ℤ) (frameId : Option String) (k : ℤ) (color : List Char) (p o : List ℝ) :
    getMarker type frameId (.int k) color p o = .error .typeError := rfl

/-- A half transparent red. -/
example : hexToRgba "#fF000080".toList = .ok ⟨255 / 255, 0 / 255, 0 / 255, 128 / 255⟩ := by
  have := C62_color (r := ['f', 'F']) (g := ['0', '0']) (b := ['0', '0']) (a := ['8', '0']) (nr := 255) (ng := 0) (nb := 0) (na := 128)
    ⟨'f', 'F', 15, 15, rfl, .inl rfl, .inr rfl, rfl⟩ ⟨'0', '0', 0, 0, rfl, .inl rfl, .inl rfl, rfl⟩ ⟨'0', '0', 0, 0, rfl, .inl rfl, .inl rfl, rfl⟩
    ⟨'8', '0', 8, 0, rfl, .inl rfl, .inl rfl, rfl⟩ 1 []
  simpa using this

/-! ### C51: publishing changes -/

section

variable {M B : Type} [DecidableEq B] {ser : M → B} {empty : B}

/-- The remembered bytes are those of the last message. -/
def Remembers (ser : M → B) (empty : B) (σ : MarkerPub M B) : Prop :=
  σ.last = match σ.log with
    | [] => empty
    | m :: _ => ser m

theorem remembers_publish {σ : MarkerPub M B} (h : Remembers ser empty σ) : Remembers ser empty (σ.publish ser) := by
  unfold MarkerPub.publish
  split_ifs
  · exact rfl
  · exact h

theorem remembers_step {σ : MarkerPub M B} (h : Remembers ser empty σ) (e : MEv M) : Remembers ser empty (σ.step ser e) := by
  cases e with
  | set m => exact h
  | publish => exact remembers_publish h
  | stop => exact h
  | shutdown => exact h
  | spin =>
    simp only [MarkerPub.step]
    split_ifs <;> exact h
  | run =>
    simp only [MarkerPub.step]
    cases σ.pc with
    | idle => exact h
    | starting => exact h
    | check =>
      simp only
      split_ifs
      · exact h
      · exact remembers_publish h

theorem remembers_exec (m : M) (evs : List (MEv M)) : Remembers ser empty ((MarkerPub.start m empty).exec ser evs) := by
  have h : Remembers ser empty (MarkerPub.start m empty) := rfl
  unfold MarkerPub.exec
  generalize MarkerPub.start m empty = σ at h ⊢
  induction evs generalizing σ with
  | nil => exact h
  | cons e evs ih => exact ih _ (remembers_step h e)

/-- After any history, a call of `publish` sends the marker exactly if nothing was sent before or its content differs from that of the
last message sent. Contract: no message is serialized to an empty buffer. -/
theorem C51_publish (hser : ∀ m, ser m ≠ empty) (m : M) (evs : List (MEv M)) :
    let σ := (MarkerPub.start m empty).exec ser evs
    let σ' := (MarkerPub.start m empty).exec ser (evs ++ [.publish])
    ((∀ m', σ.log.head? = some m' → ser σ.marker ≠ ser m') → σ'.log = σ.marker :: σ.log) ∧
    ((∃ m', σ.log.head? = some m' ∧ ser σ.marker = ser m') → σ'.log = σ.log) := by
  intro σ σ'
  have h : Remembers ser empty σ := remembers_exec m evs
  have hσ' : σ' = σ.publish ser := by simp only [σ', σ, MarkerPub.exec, List.foldl_append, List.foldl, MarkerPub.step]
  rw [hσ']
  unfold Remembers at h
  constructor
  · intro hd
    unfold MarkerPub.publish
    rw [if_pos]
    rw [h]
    cases hl : σ.log with
    | nil => exact hser _
    | cons m' l => exact hd m' (by rw [hl]; rfl)
  · rintro ⟨m', h1, h2⟩
    unfold MarkerPub.publish
    rw [if_neg]
    rw [h]
    cases hl : σ.log with
    | nil => rw [hl] at h1; cases h1
    | cons m'' l =>
      rw [hl] at h1
      cases h1
      simpa using h2

/-- No two consecutive messages have the same content, also with the loop running. -/
theorem C51_no_repetition (hser : ∀ m, ser m ≠ empty) (m : M) (evs : List (MEv M)) :
    ((MarkerPub.start m empty).exec ser evs).log.IsChain (fun a b => ser a ≠ ser b) := by
  have key : ∀ (evs : List (MEv M)) (σ : MarkerPub M B), Remembers ser empty σ → σ.log.IsChain (fun a b => ser a ≠ ser b) →
      (σ.exec ser evs).log.IsChain (fun a b => ser a ≠ ser b) := by
    intro evs
    induction evs with
    | nil => intro σ _ h; exact h
    | cons e evs ih =>
      intro σ hr h
      refine ih _ (remembers_step hr e) ?_
      have hp : (σ.publish ser).log.IsChain (fun a b => ser a ≠ ser b) := by
        unfold MarkerPub.publish
        split_ifs with hc
        · unfold Remembers at hr
          cases hl : σ.log with
          | nil => simp
          | cons m' l =>
            simp only
            rw [hl] at hr h
            rw [List.isChain_cons_cons]
            simp only at hr
            exact ⟨by rw [← hr]; exact hc, h⟩
        · exact h
      cases e with
      | set m => exact h
      | publish => exact hp
      | stop => exact h
      | shutdown => exact h
      | spin =>
        simp only [MarkerPub.step]
        split_ifs <;> exact h
      | run =>
        simp only [MarkerPub.step]
        cases σ.pc with
        | idle => exact h
        | starting => exact h
        | check =>
          simp only
          split_ifs
          · exact h
          · exact hp
  exact key evs _ rfl (by simp [MarkerPub.start])

/-- After a call of `publish`, the last message sent has the content of the marker (subscribers are up to date). -/
theorem C51_up_to_date (m : M) (evs : List (MEv M)) (hser : ∀ m, ser m ≠ empty) :
    let σ := (MarkerPub.start m empty).exec ser (evs ++ [.publish])
    ∃ m', σ.log.head? = some m' ∧ ser m' = ser σ.marker := by
  intro σ
  obtain ⟨h1, h2⟩ := C51_publish hser m evs
  have hm : σ.marker = ((MarkerPub.start m empty).exec ser evs).marker := by
    have : σ = ((MarkerPub.start m empty).exec ser evs).publish ser := by simp only [σ, MarkerPub.exec, List.foldl_append, List.foldl, MarkerPub.step]
    rw [this]
    unfold MarkerPub.publish
    split_ifs <;> rfl
  by_cases h : ∃ m', ((MarkerPub.start m empty).exec ser evs).log.head? = some m' ∧ ser ((MarkerPub.start m empty).exec ser evs).marker = ser m'
  · obtain ⟨m', a, b⟩ := h
    refine ⟨m', ?_, by rw [hm, b]⟩
    show σ.log.head? = _
    rw [show σ.log = _ from h2 ⟨m', a, b⟩]
    exact a
  · refine ⟨_, ?_, by rw [hm]⟩
    show σ.log.head? = _
    rw [show σ.log = _ from h1 fun m' a b => h ⟨m', a, b⟩]
    rfl

/-- `publish` is idempotent: a second call sends nothing. -/
theorem C51_idempotent (m : M) (evs : List (MEv M)) : (MarkerPub.start m empty).exec ser (evs ++ [.publish, .publish]) = (MarkerPub.start m empty).exec ser (evs ++ [.publish]) := by
  simp only [MarkerPub.exec, List.foldl_append, List.foldl, MarkerPub.step]
  generalize List.foldl (MarkerPub.step ser) (MarkerPub.start m empty) evs = σ
  unfold MarkerPub.publish
  split_ifs with h <;> simp_all

/-! ### C59: stopping -/

/-- Once the thread is in its loop, `stop` ends it: without further calls of `spin` or `publish` nothing more is sent, and
the next step of the thread ends it. -/
theorem C59_marker_stop_partial (m : M) (before after : List (MEv M)) (hpc : ((MarkerPub.start m empty).exec ser before).pc ≠ .starting)
    (ha : ∀ e ∈ after, e ≠ .spin ∧ e ≠ .publish) :
    ((MarkerPub.start m empty).exec ser (before ++ .stop :: after)).log = ((MarkerPub.start m empty).exec ser before).log ∧
    (.run ∈ after → ((MarkerPub.start m empty).exec ser (before ++ .stop :: after)).pc = .idle) := by
  have key : ∀ (after : List (MEv M)), (∀ e ∈ after, e ≠ .spin ∧ e ≠ .publish) → ∀ σ : MarkerPub M B, σ.pc ≠ .starting → σ.stopped = true →
      (σ.exec ser after).log = σ.log ∧ ((.run ∈ after ∨ σ.pc = .idle) → (σ.exec ser after).pc = .idle) := by
    intro after
    induction after with
    | nil => intro _ σ h1 h2; exact ⟨rfl, by simp [MarkerPub.exec]⟩
    | cons e after ih =>
      intro ha σ h1 h2
      have he := ha e (by simp)
      have ih := ih (fun e h => ha e (by simp [h]))
      show ((σ.step ser e).exec ser after).log = _ ∧ (_ → ((σ.step ser e).exec ser after).pc = _)
      cases e with
      | spin => exact absurd rfl he.1
      | publish => exact absurd rfl he.2
      | set m' =>
        obtain ⟨a, b⟩ := ih { σ with marker := m' } h1 h2
        exact ⟨a, fun h => b (by simpa using h)⟩
      | stop =>
        obtain ⟨a, b⟩ := ih { σ with stopped := true } h1 rfl
        exact ⟨a, fun h => b (by simpa using h)⟩
      | shutdown =>
        obtain ⟨a, b⟩ := ih { σ with shutdown := true } h1 h2
        exact ⟨a, fun h => b (by simpa using h)⟩
      | run =>
        simp only [MarkerPub.step]
        cases hp : σ.pc with
        | starting => exact absurd hp h1
        | idle =>
          simp only
          obtain ⟨a, b⟩ := ih σ h1 h2
          exact ⟨a, fun _ => b (.inr hp)⟩
        | check =>
          simp only [h2, or_true, if_true]
          obtain ⟨a, b⟩ := ih { σ with stopped := true, pc := .idle } (by simp) rfl
          exact ⟨a, fun _ => b (.inr rfl)⟩
  have e : (MarkerPub.start m empty).exec ser (before ++ .stop :: after) = (((MarkerPub.start m empty).exec ser before).step ser .stop).exec ser after := by
    simp [MarkerPub.exec]
  rw [e]
  obtain ⟨a, b⟩ := key after ha (((MarkerPub.start m empty).exec ser before).step ser .stop) hpc rfl
  exact ⟨a, fun h => b (.inl h)⟩

/-- `stop` called before the thread has executed its first statement is lost. -/
theorem C59_marker_stop_lost (hser : ∀ m, ser m ≠ empty) (m : M) :
    ((MarkerPub.start m empty).exec ser [.spin, .stop, .run, .run]).log = [m] ∧
    ((MarkerPub.start m empty).exec ser [.spin, .stop, .run, .run]).pc = .check := by
  simp [MarkerPub.exec, MarkerPub.step, MarkerPub.start, MarkerPub.publish, hser m]

end

/-- The contract of the serialization can be met. -/
example : ∃ (ser : Marker → Option Marker) (e : Option Marker), (∀ m, ser m ≠ e) ∧ Function.Injective ser :=
  ⟨some, none, by simp, Option.some_injective _⟩

/-! ### C52: trajectories -/

section

variable {tl : List Vec} {base : Option String} {scale : ℝ} {color : List Char} {c : RGBA}

theorem mapM_points (l : List Vec) : l.mapM (fun v => mkXYZ (vecList v)) = (.ok (l.map fun v => (⟨v 0, v 1, v 2⟩ : XYZ)) : Res (List XYZ)) := by
  induction l with
  | nil => rfl
  | cons v l ih =>
    rw [List.mapM_cons, ih]
    rfl

theorem sliceStep_every {α : Type} (l : List α) {k : ℕ} (hk : 0 < k) : ∃ r, sliceStep l k = .ok r ∧ everyKth l k r := by
  have h0 : ¬ ((k : ℤ) = 0) := by omega
  have hlen : ∀ j < (l.length + k - 1) / k, j * k < l.length := by
    intro j hj
    have h1 : (j + 1) * k ≤ l.length + k - 1 := by
      have := (Nat.le_div_iff_mul_le hk).mp (Nat.succ_le_of_lt hj)
      simpa using this
    rw [Nat.add_mul, one_mul] at h1
    omega
  have hfm : ∀ n, (∀ j < n, j * k < l.length) → ((List.range n).filterMap fun j => l[j * k]?).length = n ∧
      ∀ j < n, ((List.range n).filterMap fun j => l[j * k]?)[j]? = l[j * k]? := by
    intro n
    induction n with
    | zero => intro _; simp
    | succ n ih =>
      intro hn
      obtain ⟨i1, i2⟩ := ih fun j hj => hn j (by omega)
      have hx : l[n * k]? = some (l[n * k]'(hn n (by omega))) := List.getElem?_eq_getElem _
      rw [List.range_succ, List.filterMap_append, List.filterMap_cons, List.filterMap_nil, hx]
      simp only
      refine ⟨by rw [List.length_append, i1]; rfl, fun j hj => ?_⟩
      rcases Nat.lt_or_ge j n with h | h
      · rw [List.getElem?_append_left (by rw [i1]; exact h)]; exact i2 j h
      · have : j = n := by omega
        subst this
        rw [List.getElem?_append_right (by rw [i1]), i1, Nat.sub_self, hx]
        rfl
  obtain ⟨f1, f2⟩ := hfm _ hlen
  refine ⟨(List.range ((l.length + k - 1) / k)).filterMap fun j => l[j * k]?, ?_, f1, ?_⟩
  · simp only [sliceStep, if_neg h0]
    rw [if_pos (by omega)]
    simp
  · intro j hj
    rw [f1] at hj
    exact f2 j hj

/-- The marker of a trajectory with at least `max_points` samples: every k-th sample, where k is the number of samples divided by `max_points`,
rounded down. -/
theorem C52_points (hc : hexToRgba color = .ok c) {m : ℕ} (hm : 0 < m) (hn : m ≤ tl.length) :
    ∃ r mk, trajectoryMarker (.many tl) base m scale color = .ok mk ∧ everyKth tl (tl.length / m) r ∧
      mk = { type := 4, frameId := base, scale := ⟨scale, 0, 0⟩, color := c, position := ⟨0, 0, 0⟩, orientation := ⟨0, 0, 0, 1⟩,
             points := r.map fun v => ⟨v 0, v 1, v 2⟩ } := by
  have hk : 0 < tl.length / m := Nat.div_pos hn hm
  obtain ⟨r, e, hr⟩ := sliceStep_every tl hk
  refine ⟨r, _, ?_, hr, rfl⟩
  have hg : getMarker none base (.seq [scale, 0, 0]) color = .ok { type := 4, frameId := base, scale := ⟨scale, 0, 0⟩, color := c, position := ⟨0, 0, 0⟩, orientation := ⟨0, 0, 0, 1⟩, points := [] } := by
    have := C62_marker_partial (type := none) (frameId := base) (px := 0) (py := 0) (pz := 0) (qx := 0) (qy := 0) (qz := 0) (qw := 1) hc (.inr ⟨scale, 0, 0, rfl, rfl⟩)
    simpa using this
  have hfd : Int.fdiv (tl.length : ℤ) (m : ℤ) = ((tl.length / m : ℕ) : ℤ) := by
    rw [Int.fdiv_eq_ediv_of_nonneg _ (by omega)]; rfl
  have h0 : ¬ ((m : ℤ) = 0) := by omega
  simp only [trajectoryMarker, hg, bind, Except.bind, if_neg h0, hfd, e, mapM_points]
  rfl

/-- The number of points: at least `max_points`, less than twice as many, and exactly `max_points` if the number of samples is a multiple. Missing:
more than `max_points` points are possible (`C52_is_false`). -/
theorem C52_count_partial {α : Type} {l r : List α} {m : ℕ} (hm : 0 < m) (hn : m ≤ l.length) (hr : everyKth l (l.length / m) r) :
    m ≤ r.length ∧ r.length < 2 * m ∧ (m ∣ l.length → r.length = m) := by
  obtain ⟨h1, -⟩ := hr
  set n := l.length with hnd
  set k := n / m with hk
  have hkpos : 0 < k := Nat.div_pos hn hm
  have hdm : k * m + n % m = n := by rw [mul_comm]; exact Nat.div_add_mod n m
  have hmod : n % m < m := Nat.mod_lt n hm
  rw [h1]
  refine ⟨?_, ?_, ?_⟩
  · rw [Nat.le_div_iff_mul_le hkpos, mul_comm]; omega
  · rw [Nat.div_lt_iff_lt_mul hkpos]
    obtain ⟨a, ha⟩ : ∃ a, m = a + 1 := ⟨m - 1, by omega⟩
    obtain ⟨b, hb⟩ : ∃ b, k = b + 1 := ⟨k - 1, by omega⟩
    have hab : 0 ≤ a * b := Nat.zero_le _
    have e1 : k * m = a * b + a + b + 1 := by rw [ha, hb]; ring
    have e2 : 2 * m * k = 2 * (a * b + a + b + 1) := by rw [ha, hb]; ring
    omega
  · intro hd
    have h0 : n % m = 0 := Nat.mod_eq_zero_of_dvd hd
    rw [h0, Nat.add_zero] at hdm
    rw [← hdm, Nat.div_eq_iff hkpos, mul_comm m k]
    constructor <;> omega

/-- The points cover the series: after the last point fewer samples are left than are skipped between two points. -/
theorem C52_covers {α : Type} {l r : List α} {k : ℕ} (hk : 0 < k) (hl : l ≠ []) (hr : everyKth l k r) :
    r ≠ [] ∧ (r.length - 1) * k < l.length ∧ l.length ≤ (r.length - 1) * k + k := by
  obtain ⟨h1, -⟩ := hr
  have hn : 0 < l.length := List.length_pos_iff.mpr hl
  have hpos : 0 < r.length := by rw [h1]; exact Nat.div_pos (by omega) hk
  have hle : r.length * k ≤ l.length + k - 1 := by rw [h1]; exact Nat.div_mul_le_self _ _
  have hlt : l.length + k - 1 < (r.length + 1) * k := by
    rw [h1]; have := Nat.lt_mul_div_succ (l.length + k - 1) hk; rw [mul_comm] at this; exact this
  obtain ⟨q, hq⟩ : ∃ q, r.length = q + 1 := ⟨r.length - 1, by omega⟩
  rw [hq] at hle hlt ⊢
  refine ⟨fun h => by rw [h] at hpos; simp at hpos, ?_, ?_⟩
  · simp only [Nat.add_sub_cancel]; rw [Nat.add_mul, one_mul] at hle; omega
  · simp only [Nat.add_sub_cancel]; rw [Nat.add_mul, Nat.add_mul, one_mul] at hlt; omega

/-- Three samples and `max_points=2` give three points: the limit is exceeded. -/
theorem C52_is_false : ∃ mk, trajectoryMarker (.many [![0, 0, 0], ![1, 0, 0], ![2, 0, 0]]) (some "world") 2 1 "#ffffffff".toList = .ok mk ∧ mk.points.length = 3 := by
  have hw : ∃ c, hexToRgba "#ffffffff".toList = .ok c := by
    have hb : IsHexByte ['f', 'f'] 255 := ⟨'f', 'f', 15, 15, rfl, .inl rfl, .inl rfl, rfl⟩
    exact ⟨_, by simpa using C62_color hb hb hb hb 1 []⟩
  obtain ⟨c, hc⟩ := hw
  obtain ⟨r, mk, h1, h2, h3⟩ := C52_points (tl := [![0, 0, 0], ![1, 0, 0], ![2, 0, 0]]) (base := some "world") (scale := 1) hc (m := 2) (by decide) (by simp)
  refine ⟨mk, h1, ?_⟩
  rw [h3]
  simp only [List.length_map, h2.1]
  rfl

/-- Fewer samples than `max_points`: the constructor raises a `ValueError` (slice step zero). -/
theorem C52_short_fails (hc : hexToRgba color = .ok c) {m : ℕ} (hn : tl.length < m) :
    trajectoryMarker (.many tl) base m scale color = .error .valueError := by
  have hg : ∃ mk, getMarker none base (.seq [scale, 0, 0]) color = .ok mk :=
    ⟨_, C62_marker_partial (type := none) (frameId := base) (px := 0) (py := 0) (pz := 0) (qx := 0) (qy := 0) (qz := 0) (qw := 1) hc (.inr ⟨scale, 0, 0, rfl, rfl⟩)⟩
  obtain ⟨mk, hg⟩ := hg
  have hfd : Int.fdiv (tl.length : ℤ) (m : ℤ) = 0 := by
    rw [Int.fdiv_eq_ediv_of_nonneg _ (by omega)]
    exact Int.ediv_eq_zero_of_lt (by omega) (by omega)
  have h0 : ¬ ((m : ℤ) = 0) := by omega
  simp only [trajectoryMarker, hg, bind, Except.bind, if_neg h0, hfd, sliceStep, if_true]

/-- A frame that does not move relative to the base has no trajectory marker, for any limit. -/
theorem C52_static_fails (t : Vec) (m : ℤ) : ∃ e, trajectoryMarker (.one t) base m scale color = .error e := by
  simp only [trajectoryMarker, bind, Except.bind]
  cases getMarker none base (.seq [scale, 0, 0]) color with
  | error e => exact ⟨e, rfl⟩
  | ok mk =>
    simp only
    split_ifs
    · exact ⟨_, rfl⟩
    · cases sliceStep (vecList t) (Int.fdiv 3 m) with
      | error e => exact ⟨e, rfl⟩
      | ok l => exact ⟨.typeError, rfl⟩

/-- The constructor: the trajectory of the frame in the base frame, on the topic "/<name>/path" unless another one is given. -/
theorem C52_constructor {sq : SquadFn} {s : State} {frame : FrameRef} {a p : ℕ} {bs : Option FrameRef} (hf : s.resolve frame = .ok a) (hbase : resolveBase s a bs = .ok p)
    {rl : Arr Quat} {ts : Option (List ℝ)} (he : s.lookupTransform sq a (.byObj p) = .ok (.many tl, rl, ts)) {name : String} (hname : s.name a = some name) (topic : Option String)
    (m : ℤ) (scale : ℝ) (color : List Char) : mkMarkerPublisher sq s frame bs topic m scale color =
      (trajectoryMarker (.many tl) (s.name p) m scale color).map fun mk => (mk, if topic = none ∨ topic = some "" then "/" ++ name ++ "/path" else topic.getD "") := by
  simp only [mkMarkerPublisher, hf, hbase, he, bind, Except.bind]
  cases trajectoryMarker (.many tl) (s.name p) m scale color with
  | error e => rfl
  | ok mk =>
    simp only [Except.map, Pure.pure, Except.pure, hname, Option.getD_some]
    cases topic with
    | none => simp
    | some t => by_cases h : t = "" <;> simp [h]

end

/-- A colour without alpha value is refused (`C62_no_alpha`). -/
example : hexToRgba "#ff8000".toList = .error .valueError :=
  C62_no_alpha (r := ['f', 'f']) (g := ['8', '0']) (b := ['0', '0']) (nr := 255) (ng := 128) (nb := 0) ⟨'f', 'f', 15, 15, rfl, .inl rfl, .inl rfl, rfl⟩
    ⟨'8', '0', 8, 0, rfl, .inl rfl, .inl rfl, rfl⟩ ⟨'0', '0', 0, 0, rfl, .inl rfl, .inl rfl, rfl⟩ 1

/-- Two of four points (`C52_points`, `C52_count_partial`, `C52_covers`); five of four points fail (`C52_short_fails`). -/
example : ∃ mk, trajectoryMarker (.many [![0, 0, 0], ![1, 0, 0], ![2, 0, 0], ![3, 0, 0]]) (some "world") 2 1 "#ffffffff".toList = .ok mk ∧ mk.points.length = 2 := by
  have hc := C62_color (r := ['f', 'f']) (g := ['f', 'f']) (b := ['f', 'f']) (a := ['f', 'f']) (nr := 255) (ng := 255) (nb := 255) (na := 255)
    ⟨'f', 'f', 15, 15, rfl, .inl rfl, .inl rfl, rfl⟩ ⟨'f', 'f', 15, 15, rfl, .inl rfl, .inl rfl, rfl⟩ ⟨'f', 'f', 15, 15, rfl, .inl rfl, .inl rfl, rfl⟩
    ⟨'f', 'f', 15, 15, rfl, .inl rfl, .inl rfl, rfl⟩ 1 []
  obtain ⟨r, mk, h1, h2, h3⟩ := C52_points (tl := [![0, 0, 0], ![1, 0, 0], ![2, 0, 0], ![3, 0, 0]]) (base := some "world") (scale := 1)
    (color := "#ffffffff".toList) hc (m := 2) (by norm_num) (by norm_num)
  have h4 := C52_count_partial (by norm_num) (by norm_num) h2
  refine ⟨mk, h1, ?_⟩
  rw [h3]
  simpa using h4.2.2 (by norm_num)

example {c : RGBA} (hc : hexToRgba "#ffffffff".toList = .ok c) :
    trajectoryMarker (.many [![0, 0, 0], ![1, 0, 0], ![2, 0, 0], ![3, 0, 0]]) (some "world") 5 1 "#ffffffff".toList = .error .valueError :=
  C52_short_fails (m := 5) hc (by norm_num)

end RBM.Props
