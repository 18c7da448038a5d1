import Verif.Props.Rosbag

/-!
C61: the topics that a bag lists.
-/

namespace RBM.Props

open RBM RBM.Ros RBM.Spec

theorem eraseDups_keys (l : List (String × String)) :
    ((l.eraseDupsBy fun a c => decide (a.1 = c.1)).map Prod.fst).Nodup ∧
      ∀ t ty, (t, ty) ∈ (l.eraseDupsBy fun a c => decide (a.1 = c.1)) ↔ l.lookup t = some ty := by
  generalize hn : l.length = n
  induction n using Nat.strong_induction_on generalizing l with
  | _ n ih =>
    cases l with
    | nil => simp
    | cons x l =>
      obtain ⟨k, v⟩ := x
      rw [List.eraseDupsBy_cons]
      have hl : (l.filter fun b => decide (decide (b.1 = k) = false)).length < n := by
        subst hn
        exact lt_of_le_of_lt (List.length_filter_le _ _) (by simp)
      obtain ⟨i1, i2⟩ := ih _ hl _ rfl
      have hf : ∀ t, t ≠ k → (l.filter fun b => decide (decide (b.1 = k) = false)).lookup t = l.lookup t := by
        intro t ht
        clear i1 i2 hl hn ih
        induction l with
        | nil => rfl
        | cons y l ihl =>
          by_cases hy : y.1 = k
          · rw [List.filter_cons_of_neg (by simp [hy]), ihl]
            have : (t == y.1) = false := by simpa [← hy] using ht
            rw [List.lookup, this]
          · rw [List.filter_cons_of_pos (by simp [hy])]
            rw [List.lookup, List.lookup]
            split
            · rfl
            · exact ihl
      have hk : ∀ l' : List (String × String), (l'.filter fun b => decide (decide (b.1 = k) = false)).lookup k = none := by
        intro l'
        apply lookup_none_of_not_mem
        simp
      refine ⟨?_, ?_⟩
      · rw [List.map_cons, List.nodup_cons]
        refine ⟨?_, i1⟩
        intro h
        obtain ⟨⟨t, ty⟩, hm, rfl⟩ := List.mem_map.mp h
        rw [i2, hk] at hm
        simp at hm
      · intro t ty
        rw [List.mem_cons, i2]
        by_cases ht : t = k
        · subst ht
          rw [hk]
          simp [List.lookup, eq_comm]
        · have h' : (t == k) = false := by simpa using ht
          rw [hf t ht, List.lookup, h']
          simp [ht]

/-- For every bag: the listing has each topic once; it gives a type to a topic iff that is the type of its first connection, the one by which
`load_messages` decides. -/
theorem C61_topics_bag (b : Bag) (path : Path) :
    ∃ l, (Reader.mk path (some b)).getTopicsAndTypes = .ok l ∧ (l.map Prod.fst).Nodup ∧
      ∀ topic ty, (topic, ty) ∈ l ↔ b.conns.lookup topic = some ty :=
  ⟨_, rfl, (eraseDups_keys b.conns).1, (eraseDups_keys b.conns).2⟩

/-- After any history of writes the topics to which at least one row was written are listed, each once, with the type of a stamped transform; no
other topic is. The topics that are listed are those that can be loaded. -/
theorem C61_topics (calls : List WriteCall) (path : Path) :
    ∃ l, (Reader.mk path (writeAll calls)).getTopicsAndTypes = .ok l ∧ (l.map Prod.fst).Nodup ∧
      ∀ topic ty, (topic, ty) ∈ l ↔ acceptedOn calls topic ≠ [] ∧ ty = "geometry_msgs/TransformStamped" := by
  obtain ⟨b, hb, _, h1, h2⟩ := writeAll_bag calls
  obtain ⟨l, hl, hnd, hmem⟩ := C61_topics_bag b path
  refine ⟨l, by rw [hb]; exact hl, hnd, fun topic ty => ?_⟩
  rw [hmem, ← h2]
  constructor
  · intro h
    by_cases hin : topic ∈ b.conns.map Prod.fst
    · obtain ⟨ty', e, hm⟩ := lookup_some_of_mem hin
      rw [e] at h
      obtain rfl := Option.some.inj h
      exact ⟨hin, h1 _ _ hm⟩
    · rw [lookup_none_of_not_mem hin] at h
      simp at h
  · rintro ⟨hin, rfl⟩
    obtain ⟨ty', e, hm⟩ := lookup_some_of_mem hin
    rw [e, h1 _ _ hm]

/-- Outside of the context manager nothing is listed. -/
theorem C61_topics_closed (path : Path) : (Reader.mk path none).getTopicsAndTypes = .error .runtimeError := rfl

/-- A bag with two connections for one topic: it is listed once. -/
example : (Reader.mk ⟨[], "x.bag"⟩ (some ⟨[("/a", "T"), ("/b", "U"), ("/a", "T")], []⟩)).getTopicsAndTypes = .ok [("/a", "T"), ("/b", "U")] := by
  simp [Reader.getTopicsAndTypes, Bag.topicsAndTypes, List.eraseDupsBy_cons]

end RBM.Props
