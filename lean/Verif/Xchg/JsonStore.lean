import Verif.Xchg.JsonLemmas

/-!
# Lemmas on stored JSON values: the order of the members does not matter
-/

namespace Verif.Xchg

open Verif.UnicodeSpec Verif.Str JsonSpec

theorem properMembers_iff (l : List (String × Json)) : ProperMembers l ↔ ∀ p ∈ l, Proper p.2 := by
  induction l with
  | nil => simp [ProperMembers]
  | cons p l ih => obtain ⟨k, v⟩ := p; rw [ProperMembers, ih]; simp

theorem properElements_iff (l : List Json) : ProperElements l ↔ ∀ v ∈ l, Proper v := by
  induction l with
  | nil => simp [ProperElements]
  | cons v l ih => rw [ProperElements, ih]; simp

theorem utf8Members_iff (l : List (String × Json)) : AllUtf8Members l ↔ ∀ p ∈ l, Utf8 p.1.toList ∧ AllUtf8 p.2 := by
  induction l with
  | nil => simp [AllUtf8Members]
  | cons p l ih => obtain ⟨k, v⟩ := p; rw [AllUtf8Members, ih]; simp [and_assoc]

theorem utf8Elements_iff (l : List Json) : AllUtf8Elements l ↔ ∀ v ∈ l, AllUtf8 v := by
  induction l with
  | nil => simp [AllUtf8Elements]
  | cons v l ih => rw [AllUtf8Elements, ih]; simp

theorem storedList_map (l : List Json) : storedList l = l.map Json.stored := by
  induction l with
  | nil => rfl
  | cons v l ih => rw [storedList, ih]; rfl

theorem mem_insertKey {k : String} {v : Json} {p : String × Json} {l : List (String × Json)} (h : p ∈ insertKey k v l) :
    p = (k, v) ∨ p ∈ l := by
  induction l with
  | nil => simpa [insertKey] using h
  | cons q l ih =>
    obtain ⟨a, w⟩ := q
    rw [insertKey] at h
    split at h
    · simpa using h
    · split at h
      · simp only [List.mem_cons] at h ⊢
        rcases h with h | h
        · exact .inl h
        · exact .inr (.inr h)
      · simp only [List.mem_cons] at h ⊢
        rcases h with h | h
        · exact .inr (.inl h)
        · rcases ih h with h | h
          · exact .inl h
          · exact .inr (.inr h)

theorem mem_storedMembers {p : String × Json} {l : List (String × Json)} (h : p ∈ storedMembers l) : ∃ q ∈ l, p = (q.1, q.2.stored) := by
  induction l with
  | nil => simp [storedMembers] at h
  | cons q l ih =>
    obtain ⟨k, v⟩ := q
    rw [storedMembers] at h
    rcases mem_insertKey h with h | h
    · exact ⟨(k, v), by simp, h⟩
    · obtain ⟨q, hq, e⟩ := ih h
      exact ⟨q, by simp [hq], e⟩

theorem lookup_insertKey (k : String) (v : Json) (l : List (String × Json)) (x : String) :
    (insertKey k v l).lookup x = if x = k then some v else l.lookup x := by
  induction l with
  | nil =>
    by_cases h : x = k
    · simp [insertKey, List.lookup, h]
    · simp [insertKey, List.lookup, h, beq_eq_false_iff_ne.2 h]
  | cons q l ih =>
    obtain ⟨a, w⟩ := q
    rw [insertKey]
    by_cases h1 : k < a
    · rw [if_pos h1]
      by_cases h : x = k
      · simp [List.lookup, h]
      · simp [List.lookup_cons, h, beq_eq_false_iff_ne.2 h]
    · rw [if_neg h1]
      by_cases h2 : k = a
      · subst h2
        rw [if_pos rfl]
        by_cases h : x = k
        · simp [List.lookup, h]
        · simp [List.lookup_cons, h, beq_eq_false_iff_ne.2 h]
      · rw [if_neg h2, List.lookup_cons, List.lookup_cons, ih]
        by_cases h3 : x = a
        · subst h3
          simp [Ne.symm h2]
        · rw [beq_eq_false_iff_ne.2 h3]

theorem lookup_stored (l : List (String × Json)) (k : String) : (storedMembers l).lookup k = (l.lookup k).map Json.stored := by
  induction l with
  | nil => rfl
  | cons p l ih =>
    obtain ⟨a, v⟩ := p
    rw [storedMembers, lookup_insertKey, List.lookup_cons, ih]
    by_cases h : k = a
    · subst h; simp
    · rw [if_neg h, beq_eq_false_iff_ne.2 h]

theorem length_insertKey (k : String) (v : Json) (l : List (String × Json)) (h : k ∉ l.map Prod.fst) :
    (insertKey k v l).length = l.length + 1 := by
  induction l with
  | nil => rfl
  | cons p l ih =>
    obtain ⟨a, w⟩ := p
    simp only [List.map_cons, List.mem_cons, not_or] at h
    rw [insertKey]
    split
    · rfl
    · rw [if_neg h.1, List.length_cons, ih h.2]; rfl

theorem length_stored (l : List (String × Json)) (h : (l.map Prod.fst).Nodup) : (storedMembers l).length = l.length := by
  induction l with
  | nil => rfl
  | cons p l ih =>
    obtain ⟨k, v⟩ := p
    rw [List.map_cons, List.nodup_cons] at h
    rw [storedMembers, length_insertKey, ih h.2]
    · rfl
    · intro hc
      obtain ⟨q, hq, e⟩ := List.mem_map.1 hc
      obtain ⟨r, hr, e2⟩ := mem_storedMembers hq
      exact h.1 (List.mem_map.2 ⟨r, hr, by rw [← e, e2]⟩)

/-! ### The order of the keys -/

/-- The keys ascend. -/
def Ascending (l : List (String × Json)) : Prop := l.Pairwise fun p q => p.1 < q.1

theorem insertKey_ascending (k : String) (v : Json) (l : List (String × Json)) (h : Ascending l) : Ascending (insertKey k v l) := by
  induction l with
  | nil => exact List.pairwise_singleton _ _
  | cons p l ih =>
    obtain ⟨a, w⟩ := p
    have h0 := List.pairwise_cons.1 h
    rw [insertKey]
    split
    · rename_i hk
      refine List.pairwise_cons.2 ⟨?_, h⟩
      intro q hq
      rcases List.mem_cons.1 hq with rfl | hq
      · exact hk
      · exact String.lt_trans hk (h0.1 q hq)
    · split
      · rename_i e
        subst e
        exact List.pairwise_cons.2 ⟨h0.1, h0.2⟩
      · rename_i h1 h2
        refine List.pairwise_cons.2 ⟨?_, ih h0.2⟩
        intro q hq
        rcases mem_insertKey hq with rfl | hq
        · refine Classical.byContradiction fun h3 => ?_
          exact h2 (String.le_antisymm (String.not_lt.1 h3) (String.not_lt.1 h1))
        · exact h0.1 q hq

theorem storedMembers_ascending (l : List (String × Json)) : Ascending (storedMembers l) := by
  induction l with
  | nil => rw [storedMembers]; exact List.Pairwise.nil
  | cons p l ih =>
    obtain ⟨k, v⟩ := p
    rw [storedMembers]
    exact insertKey_ascending _ _ _ ih

theorem Ascending.nodup {l : List (String × Json)} (h : Ascending l) : (l.map Prod.fst).Nodup := by
  rw [List.Nodup, List.pairwise_map]
  refine List.Pairwise.imp ?_ h
  intro p q hpq e
  rw [e] at hpq
  exact String.lt_irrefl _ hpq

theorem stored_ascending (l : List (String × Json)) (h : Ascending l) (hs : ∀ p ∈ l, p.2.stored = p.2) : storedMembers l = l := by
  induction l with
  | nil => rfl
  | cons p l ih =>
    obtain ⟨k, v⟩ := p
    have h0 := List.pairwise_cons.1 h
    rw [storedMembers, ih h0.2 (fun q hq => hs q (by simp [hq])), hs (k, v) (by simp)]
    cases l with
    | nil => rfl
    | cons q l => rw [insertKey, if_pos (h0.1 q (by simp))]

mutual

theorem stored_stored : ∀ j : Json, j.stored.stored = j.stored
  | .null => rfl
  | .bool _ => rfl
  | .num _ => rfl
  | .str _ => rfl
  | .arr l => by
    rw [Json.stored, Json.stored, storedList_map (storedList l)]
    congr 1
    rw [List.map_congr_left (stored_list l), List.map_id]
  | .obj l => by
    rw [Json.stored, Json.stored, stored_ascending _ (storedMembers_ascending l)]
    intro p hp
    obtain ⟨q, hq, e⟩ := mem_storedMembers hp
    rw [e]
    exact stored_members l q hq

theorem stored_list : ∀ l : List Json, ∀ v ∈ storedList l, v.stored = id v
  | [], _, h => by simp [storedList] at h
  | a :: l, v, h => by
    rw [storedList] at h
    rcases List.mem_cons.1 h with rfl | h
    · exact stored_stored a
    · exact stored_list l v h

theorem stored_members : ∀ l : List (String × Json), ∀ q ∈ l, q.2.stored.stored = q.2.stored
  | [], _, h => by simp at h
  | (k, v) :: l, q, h => by
    rcases List.mem_cons.1 h with rfl | h
    · exact stored_stored v
    · exact stored_members l q h

end

/-! ### Storing keeps what matters -/

mutual

theorem proper_stored : ∀ j : Json, Proper j → Proper j.stored
  | .null, h => h
  | .bool _, h => h
  | .num _, h => h
  | .str _, h => h
  | .arr l, h => by
    rw [Proper, properElements_iff] at h
    rw [Json.stored, Proper, properElements_iff, storedList_map]
    intro v hv
    obtain ⟨a, ha, rfl⟩ := List.mem_map.1 hv
    exact proper_list l a ha (h a ha)
  | .obj l, h => by
    rw [Proper, properMembers_iff] at h
    rw [Json.stored, Proper, properMembers_iff]
    refine ⟨(storedMembers_ascending l).nodup, ?_⟩
    intro p hp
    obtain ⟨q, hq, rfl⟩ := mem_storedMembers hp
    exact proper_members l q hq (h.2 q hq)

theorem proper_list : ∀ l : List Json, ∀ v ∈ l, Proper v → Proper v.stored
  | [], _, h, _ => nomatch h
  | a :: l, v, h, hp => by
    rcases List.mem_cons.1 h with e | h
    · rw [e]; exact proper_stored a (e ▸ hp)
    · exact proper_list l v h hp

theorem proper_members : ∀ l : List (String × Json), ∀ q ∈ l, Proper q.2 → Proper q.2.stored
  | [], _, h, _ => nomatch h
  | (k, v) :: l, q, h, hp => by
    rcases List.mem_cons.1 h with rfl | h
    · exact proper_stored v hp
    · exact proper_members l q h hp

end

mutual

theorem utf8_stored : ∀ j : Json, AllUtf8 j → AllUtf8 j.stored
  | .null, h => h
  | .bool _, h => h
  | .num _, h => h
  | .str _, h => h
  | .arr l, h => by
    rw [AllUtf8, utf8Elements_iff] at h
    rw [Json.stored, AllUtf8, utf8Elements_iff, storedList_map]
    intro v hv
    obtain ⟨a, ha, rfl⟩ := List.mem_map.1 hv
    exact utf8_list l a ha (h a ha)
  | .obj l, h => by
    rw [AllUtf8, utf8Members_iff] at h
    rw [Json.stored, AllUtf8, utf8Members_iff]
    intro p hp
    obtain ⟨q, hq, rfl⟩ := mem_storedMembers hp
    exact ⟨(h q hq).1, utf8_members l q hq (h q hq).2⟩

theorem utf8_list : ∀ l : List Json, ∀ v ∈ l, AllUtf8 v → AllUtf8 v.stored
  | [], _, h, _ => nomatch h
  | a :: l, v, h, hp => by
    rcases List.mem_cons.1 h with e | h
    · rw [e]; exact utf8_stored a (e ▸ hp)
    · exact utf8_list l v h hp

theorem utf8_members : ∀ l : List (String × Json), ∀ q ∈ l, AllUtf8 q.2 → AllUtf8 q.2.stored
  | [], _, h, _ => nomatch h
  | (k, v) :: l, q, h, hp => by
    rcases List.mem_cons.1 h with rfl | h
    · exact utf8_stored v hp
    · exact utf8_members l q h hp

end

theorem lookup_of_mem {l : List (String × Json)} (h : (l.map Prod.fst).Nodup) {k : String} {v : Json} (hm : (k, v) ∈ l) :
    l.lookup k = some v := by
  induction l with
  | nil => simp at hm
  | cons p l ih =>
    obtain ⟨a, w⟩ := p
    rw [List.map_cons, List.nodup_cons] at h
    rw [List.lookup_cons]
    rcases List.mem_cons.1 hm with e | hm'
    · simp only [Prod.mk.injEq] at e
      obtain ⟨rfl, rfl⟩ := e
      simp
    · have : k ≠ a := by
        rintro rfl
        exact h.1 (List.mem_map.2 ⟨_, hm', rfl⟩)
      rw [beq_eq_false_iff_ne.2 this]
      exact ih h.2 hm'

theorem mem_of_lookup' {l : List (String × Json)} {k : String} {v : Json} (h : l.lookup k = some v) : (k, v) ∈ l := by
  induction l with
  | nil => simp at h
  | cons p l ih =>
    obtain ⟨a, w⟩ := p
    rw [List.lookup_cons] at h
    by_cases e : k = a
    · subst e
      simp only [beq_self_eq_true] at h
      injection h with h
      subst h
      simp
    · rw [beq_eq_false_iff_ne.2 e] at h
      exact List.mem_cons_of_mem _ (ih h)

theorem mem_stored {l : List (String × Json)} (h : (l.map Prod.fst).Nodup) {k : String} {v : Json} (hm : (k, v) ∈ l) :
    (k, v.stored) ∈ storedMembers l := by
  refine mem_of_lookup' ?_
  rw [lookup_stored, lookup_of_mem h hm]
  rfl

mutual

theorem same_stored : ∀ j : Json, Proper j → Same j j.stored
  | .null, _ => by simp [Json.stored, Same]
  | .bool _, _ => by simp [Json.stored, Same]
  | .num _, _ => by simp [Json.stored, Same]
  | .str _, _ => by simp [Json.stored, Same]
  | .arr l, h => by
    rw [Proper] at h
    rw [Json.stored, Same]
    exact same_list l h
  | .obj l, h => by
    rw [Proper, properMembers_iff] at h
    rw [Json.stored, Same]
    exact ⟨(length_stored l h.1).symm, same_members l _ h.2 (fun k v hm => lookup_of_mem (storedMembers_ascending l).nodup (mem_stored h.1 hm))⟩

theorem same_list : ∀ l : List Json, ProperElements l → SameElements l (storedList l)
  | [], _ => by simp [storedList, SameElements]
  | a :: l, h => by
    rw [ProperElements] at h
    rw [storedList, SameElements]
    exact ⟨same_stored a h.1, same_list l h.2⟩

theorem same_members : ∀ (l m : List (String × Json)), (∀ p ∈ l, Proper p.2) → (∀ k v, (k, v) ∈ l → m.lookup k = some v.stored) → SameMembers l m
  | [], _, _, _ => by simp [SameMembers]
  | (k, v) :: l, m, h, hm => by
    rw [SameMembers]
    exact ⟨⟨v.stored, hm k v (by simp), same_stored v (h (k, v) (by simp))⟩,
      same_members l m (fun p hp => h p (by simp [hp])) (fun k v hkv => hm k v (by simp [hkv]))⟩

end

mutual

theorem utf8_of_stored : ∀ j : Json, Proper j → AllUtf8 j.stored → AllUtf8 j
  | .null, _, h => h
  | .bool _, _, h => h
  | .num _, _, h => h
  | .str _, _, h => h
  | .arr l, hp, h => by
    rw [Proper, properElements_iff] at hp
    rw [Json.stored, AllUtf8, utf8Elements_iff, storedList_map] at h
    rw [AllUtf8, utf8Elements_iff]
    intro v hv
    exact utf8_of_list l v hv (hp v hv) (h _ (List.mem_map.2 ⟨v, hv, rfl⟩))
  | .obj l, hp, h => by
    rw [Proper, properMembers_iff] at hp
    rw [Json.stored, AllUtf8, utf8Members_iff] at h
    rw [AllUtf8, utf8Members_iff]
    intro q hq
    have := h _ (mem_stored hp.1 (k := q.1) (v := q.2) hq)
    exact ⟨this.1, utf8_of_members l q hq (hp.2 q hq) this.2⟩

theorem utf8_of_list : ∀ l : List Json, ∀ v ∈ l, Proper v → AllUtf8 v.stored → AllUtf8 v
  | [], _, h, _, _ => nomatch h
  | a :: l, v, h, hp, hu => by
    rcases List.mem_cons.1 h with e | h
    · rw [e]; exact utf8_of_stored a (e ▸ hp) (e ▸ hu)
    · exact utf8_of_list l v h hp hu

theorem utf8_of_members : ∀ l : List (String × Json), ∀ q ∈ l, Proper q.2 → AllUtf8 q.2.stored → AllUtf8 q.2
  | [], _, h, _, _ => nomatch h
  | (k, v) :: l, q, h, hp, hu => by
    rcases List.mem_cons.1 h with rfl | h
    · exact utf8_of_stored v hp hu
    · exact utf8_of_members l q h hp hu

end

/-! ### Writing throws exactly for texts that are not UTF-8 -/

/-- A result that is fine only under `P`, and an exception otherwise. -/
def OkOnly (P : Prop) (r : Except Trouble (List Char)) : Prop := (∃ t, r = .ok t ∧ P) ∨ r = .error .thrown

theorem okOnly_string (s : List Char) : OkOnly (Utf8 s) (dumpString s) := by
  by_cases h : Utf8 s
  · obtain ⟨t, ht, _⟩ := dumpString_ok s h
    exact .inl ⟨_, ht, h⟩
  · exact .inr (dumpString_thrown s h)

theorem okOnly_bind {P Q : Prop} {r : Except Trouble (List Char)} {f : List Char → Except Trouble (List Char)} (h : OkOnly P r)
    (hf : ∀ t, OkOnly Q (f t)) : OkOnly (P ∧ Q) (r >>= f) := by
  rcases h with ⟨t, rfl, hp⟩ | rfl
  · rcases hf t with ⟨u, hu, hq⟩ | hu
    · exact .inl ⟨u, hu, hp, hq⟩
    · exact .inr hu
  · exact .inr rfl

theorem okOnly_imp {P Q : Prop} {r : Except Trouble (List Char)} (h : OkOnly P r) (hpq : P → Q) : OkOnly Q r := by
  rcases h with ⟨t, ht, hp⟩ | h
  · exact .inl ⟨t, ht, hpq hp⟩
  · exact .inr h

theorem okOnly_ok (t : List Char) : OkOnly True (.ok t) := .inl ⟨t, rfl, trivial⟩

mutual

theorem okOnly_dump : ∀ j : Json, OkOnly (AllUtf8 j) (dumpStored j)
  | .null => okOnly_imp (okOnly_ok _) (fun _ => by simp [AllUtf8])
  | .bool true => okOnly_imp (okOnly_ok _) (fun _ => by simp [AllUtf8])
  | .bool false => okOnly_imp (okOnly_ok _) (fun _ => by simp [AllUtf8])
  | .num n => by rw [dumpStored]; exact okOnly_imp (okOnly_ok _) (fun _ => by simp [AllUtf8])
  | .str s => by rw [dumpStored]; exact okOnly_imp (okOnly_string s) (fun h => by simpa [AllUtf8] using h)
  | .arr [] => okOnly_imp (okOnly_ok _) (fun _ => by simp [AllUtf8, AllUtf8Elements])
  | .arr (v :: l) => by
    rw [dumpStored]
    · exact okOnly_imp (okOnly_bind (okOnly_elements (v :: l)) (fun _ => okOnly_ok _)) (fun h => by rw [AllUtf8]; exact h.1)
    · nofun
  | .obj [] => okOnly_imp (okOnly_ok _) (fun _ => by simp [AllUtf8, AllUtf8Members])
  | .obj (p :: l) => by
    rw [dumpStored]
    · exact okOnly_imp (okOnly_bind (okOnly_members (p :: l)) (fun _ => okOnly_ok _)) (fun h => by rw [AllUtf8]; exact h.1)
    · nofun

theorem okOnly_elements : ∀ l : List Json, OkOnly (AllUtf8Elements l) (dumpElements l)
  | [] => okOnly_imp (okOnly_ok _) (fun _ => by simp [AllUtf8Elements])
  | [v] => by rw [dumpElements]; exact okOnly_imp (okOnly_dump v) (fun h => by simpa [AllUtf8Elements] using h)
  | v :: a :: l => by
    rw [dumpElements]
    · exact okOnly_imp (okOnly_bind (okOnly_dump v) (fun _ => okOnly_bind (okOnly_elements (a :: l)) (fun _ => okOnly_ok _)))
        (fun h => by rw [AllUtf8Elements]; exact ⟨h.1, h.2.1⟩)
    · nofun

theorem okOnly_members : ∀ l : List (String × Json), OkOnly (AllUtf8Members l) (dumpMembers l)
  | [] => okOnly_imp (okOnly_ok _) (fun _ => by simp [AllUtf8Members])
  | [(k, v)] => by
    rw [dumpMembers]
    exact okOnly_imp (okOnly_bind (okOnly_string k.toList) (fun _ => okOnly_bind (okOnly_dump v) (fun _ => okOnly_ok _)))
      (fun h => by rw [AllUtf8Members]; exact ⟨h.1, h.2.1, by simp [AllUtf8Members]⟩)
  | (k, v) :: p :: l => by
    rw [dumpMembers]
    · exact okOnly_imp (okOnly_bind (okOnly_string k.toList) (fun _ => okOnly_bind (okOnly_dump v)
        (fun _ => okOnly_bind (okOnly_members (p :: l)) (fun _ => okOnly_ok _))))
        (fun h => by rw [AllUtf8Members]; exact ⟨h.1, h.2.1, h.2.2.1⟩)
    · nofun

end

end Verif.Xchg
