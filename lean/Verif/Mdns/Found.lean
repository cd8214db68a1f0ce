import Verif.Mdns.Answer
import Verif.Mdns.Collect

/-!
# Lemmas: the answers made of received records
-/

namespace Verif.Mdns

theorem mem_distinct {α : Type} [DecidableEq α] (seen l : List α) (a : α) : a ∈ distinct seen l ↔ a ∈ l ∧ a ∉ seen := by
  induction l generalizing seen with
  | nil => simp [distinct]
  | cons x l ih =>
    rw [distinct]
    by_cases hx : x ∈ seen
    · rw [if_pos hx, ih]
      constructor
      · rintro ⟨h1, h2⟩; exact ⟨List.mem_cons_of_mem _ h1, h2⟩
      · rintro ⟨h1, h2⟩
        rcases List.mem_cons.1 h1 with rfl | h1
        · exact absurd hx h2
        · exact ⟨h1, h2⟩
    · rw [if_neg hx, List.mem_cons, ih]
      constructor
      · rintro (rfl | ⟨h1, h2⟩)
        · exact ⟨by simp, hx⟩
        · exact ⟨List.mem_cons_of_mem _ h1, fun h => h2 (List.mem_cons_of_mem _ h)⟩
      · rintro ⟨h1, h2⟩
        by_cases e : a = x
        · exact Or.inl e
        · rcases List.mem_cons.1 h1 with h | h1
          · exact absurd h e
          · exact Or.inr ⟨h1, fun h => by rcases List.mem_cons.1 h with h | h; exact e h; exact h2 h⟩

theorem nodup_distinct {α : Type} [DecidableEq α] (seen l : List α) : (distinct seen l).Nodup := by
  induction l generalizing seen with
  | nil => simp [distinct]
  | cons x l ih =>
    rw [distinct]
    split
    · exact ih _
    · refine List.nodup_cons.2 ⟨fun h => ?_, ih _⟩
      exact ((mem_distinct _ _ _).1 h).2 (by simp)

theorem distinct_map {α β : Type} [DecidableEq α] [DecidableEq β] (f : α → β) (hf : ∀ a b, f a = f b → a = b) (seen l : List α) :
    distinct (seen.map f) (l.map f) = (distinct seen l).map f := by
  induction l generalizing seen with
  | nil => rfl
  | cons x l ih =>
    have hm : f x ∈ seen.map f ↔ x ∈ seen := by
      constructor
      · intro h
        obtain ⟨y, hy, e⟩ := List.mem_map.1 h
        rwa [← hf _ _ e]
      · exact List.mem_map_of_mem
    rw [List.map_cons, distinct, distinct]
    by_cases hx : x ∈ seen
    · rw [if_pos hx, if_pos (hm.2 hx), ih]
    · rw [if_neg hx, if_neg (fun h => hx (hm.1 h)), List.map_cons, ← ih (x :: seen), List.map_cons]

theorem mem_insertText (t x : Bytes) (l : List Bytes) : x ∈ insertText t l ↔ x = t ∨ x ∈ l := by
  induction l with
  | nil => simp [insertText]
  | cons y l ih =>
    rw [insertText]
    split
    · rename_i h
      rw [List.mem_cons, h]
      grind
    · split
      · simp
      · rw [List.mem_cons, ih, List.mem_cons]
        grind

/-- The texts of a `std::set`. -/
def setOf (l : List Bytes) : List Bytes := l.foldl (fun s t => insertText t s) []

theorem mem_setOf (l : List Bytes) (x : Bytes) : x ∈ setOf l ↔ x ∈ l := by
  unfold setOf
  have : ∀ s, x ∈ l.foldl (fun s t => insertText t s) s ↔ x ∈ l ∨ x ∈ s := by
    induction l with
    | nil => simp
    | cons t l ih =>
      intro s
      rw [List.foldl_cons, ih, mem_insertText, List.mem_cons]
      grind
  rw [this]
  simp

theorem before_irrefl (a : Bytes) : before a a = false := by
  induction a with
  | nil => rfl
  | cons x a ih => rw [before, if_pos rfl, ih]

theorem before_trans (a b c : Bytes) (h : before a b = true) (h' : before b c = true) : before a c = true := by
  induction a generalizing b c with
  | nil =>
    cases b with
    | nil => simp [before] at h
    | cons y b =>
      cases c with
      | nil => simp [before] at h'
      | cons z c => rfl
  | cons x a ih =>
    cases b with
    | nil => simp [before] at h
    | cons y b =>
      cases c with
      | nil => simp [before] at h'
      | cons z c =>
        rw [before] at h h' ⊢
        by_cases hxy : x = y
        · subst hxy
          rw [if_pos rfl] at h
          by_cases hxz : x = z
          · rw [if_pos hxz] at h' ⊢
            exact ih _ _ h h'
          · rw [if_neg hxz] at h' ⊢
            exact h'
        · rw [if_neg hxy] at h
          by_cases hyz : y = z
          · subst hyz
            rw [if_neg hxy]
            exact h
          · rw [if_neg hyz] at h'
            simp only [decide_eq_true_eq] at h h' ⊢
            have hxz : x ≠ z := by
              rintro rfl
              omega
            rw [if_neg hxz]
            simp only [decide_eq_true_eq]
            omega

theorem before_total (a b : Bytes) (h : a ≠ b) (h' : before a b = false) : before b a = true := by
  induction a generalizing b with
  | nil =>
    cases b with
    | nil => exact absurd rfl h
    | cons y b => simp [before] at h'
  | cons x a ih =>
    cases b with
    | nil => rfl
    | cons y b =>
      rw [before] at h' ⊢
      by_cases hxy : x = y
      · subst hxy
        rw [if_pos rfl] at h' ⊢
        exact ih _ (fun e => h (by rw [e])) h'
      · rw [if_neg hxy] at h'
        rw [if_neg (Ne.symm hxy)]
        simp only [decide_eq_false_iff_not, decide_eq_true_eq] at h' ⊢
        have : x.toNat ≠ y.toNat := fun e => hxy (BitVec.eq_of_toNat_eq e)
        omega

theorem insertText_sorted (t : Bytes) (l : List Bytes) (h : l.Pairwise fun a b => before a b = true) :
    (insertText t l).Pairwise fun a b => before a b = true := by
  induction l with
  | nil => simp [insertText]
  | cons y l ih =>
    rw [insertText]
    split
    · exact h
    · rename_i hne
      obtain ⟨h1, h2⟩ := List.pairwise_cons.1 h
      split
      · rename_i hb
        refine List.pairwise_cons.2 ⟨fun z hz => ?_, h⟩
        rcases List.mem_cons.1 hz with rfl | hz
        · exact hb
        · exact before_trans _ _ _ hb (h1 z hz)
      · rename_i hb
        refine List.pairwise_cons.2 ⟨fun z hz => ?_, ih h2⟩
        rcases (mem_insertText _ _ _).1 hz with rfl | hz
        · exact before_total _ _ hne (by simpa using hb)
        · exact h1 z hz

theorem setOf_sorted (l : List Bytes) : (setOf l).Pairwise fun a b => before a b = true := by
  unfold setOf
  have : ∀ s : List Bytes, (s.Pairwise fun a b => before a b = true) →
      (l.foldl (fun s t => insertText t s) s).Pairwise fun a b => before a b = true := by
    induction l with
    | nil => exact fun s h => h
    | cons t l ih => exact fun s h => ih _ (insertText_sorted t s h)
  exact this [] List.Pairwise.nil

theorem setOf_nodup (l : List Bytes) : (setOf l).Nodup := by
  refine (setOf_sorted l).imp fun {a b} h e => ?_
  subst e
  rw [before_irrefl] at h
  exact absurd h (by decide)

theorem setOf_eq {l : List Bytes} {t : Bytes} (h : ∀ x ∈ l, x = t) (hne : l ≠ []) : setOf l = [t] := by
  have h1 := setOf_nodup l
  have h2 := mem_setOf l
  have ht : t ∈ setOf l := by
    obtain ⟨x, hx⟩ := List.exists_mem_of_ne_nil l hne
    rw [h2, ← h x hx]
    exact hx
  match hs : setOf l with
  | [] => rw [hs] at ht; simp at ht
  | [x] => rw [hs, List.mem_singleton] at ht; rw [ht]
  | x :: y :: r =>
    rw [hs] at h1 h2
    have e1 := h x ((h2 x).1 (by simp))
    have e2 := h y ((h2 y).1 (by simp))
    rw [e1, e2] at h1
    simp at h1

/-- The records of a station. -/
def items (s : Service) : List Item :=
  .ptr mvrService (s.host ++ 46 :: mvrService) :: .srv (s.host ++ 46 :: mvrService) s.port (s.host ++ 46 :: localText) :: extraItems s

/-- Packets that arrive at a searching station: each from an address, with the records of the station at that address and one of the
IPv4 addresses of its interfaces. -/
def packets (st : Bytes → Service) (as : List (Bytes × Option Bytes)) : List (Bytes × List Item) :=
  as.map fun x => (x.1, items { st x.1 with ipv4 := x.2 })

/-- The records of a kind in one packet of a station that belong to its SRV record. -/
def got (pick : Item → Option (Bytes × Bytes)) (a : Bytes) (s : Service) : List Bytes :=
  (items s).filterMap fun i => (pick i).bind fun p =>
    if belongs a p.1 a (s.host ++ 46 :: mvrService) (s.host ++ 46 :: localText) then some p.2 else none

theorem filtered (pick : Item → Option (Bytes × Bytes)) (st : Bytes → Service) (as : List (Bytes × Option Bytes)) (a : Bytes) :
    ((heard (packets st as)).filterMap fun x => (pick x.item).bind fun p =>
      if belongs x.addr p.1 a ((st a).host ++ 46 :: mvrService) ((st a).host ++ 46 :: localText) then some p.2 else none) =
    as.flatMap fun x => if x.1 = a then got pick a { st a with ipv4 := x.2 } else [] := by
  induction as with
  | nil => rfl
  | cons x as ih =>
    have e : heard (packets st (x :: as)) = (items { st x.1 with ipv4 := x.2 }).map (fun i => ⟨x.1, i⟩) ++ heard (packets st as) := by
      simp [heard, packets]
    rw [e, List.filterMap_append, ih, List.flatMap_cons, List.filterMap_map]
    congr 1
    by_cases hx : x.1 = a
    · rw [if_pos hx, ← hx]
      rfl
    · rw [if_neg hx, List.filterMap_eq_nil_iff]
      intro i _
      have : ∀ n srv tgt, belongs x.1 n a srv tgt = false := by
        intro n srv tgt
        unfold belongs
        rw [beq_eq_false_iff_ne.2 hx]
        rfl
      simp only [Function.comp, this]
      cases pick i <;> rfl

theorem belongs_service (a host target : Bytes) : belongs a mvrService a (host ++ 46 :: mvrService) target = true := by
  simp only [belongs, Bool.and_eq_true, beq_iff_eq, Bool.or_eq_true, List.isSuffixOf_iff_suffix, true_and]
  exact Or.inl (Or.inr ⟨host ++ [46], by simp⟩)

theorem belongs_self (a srv target : Bytes) : belongs a srv a srv target = true := by simp [belongs]

theorem belongs_target (a srv target : Bytes) : belongs a target a srv target = true := by simp [belongs]

theorem got_ptr (a : Bytes) (s : Service) : got Item.ptr? a s = [s.host ++ 46 :: mvrService] := by
  unfold got items extraItems
  have hb := belongs_service a s.host (s.host ++ 46 :: localText)
  generalize s.host ++ 46 :: mvrService = full at *
  generalize s.host ++ 46 :: localText = target at *
  cases s.ipv4 <;> cases s.ipv6 <;> by_cases h : s.txt = [] ∨ 255 < s.txt.length <;> simp [h, List.filterMap_cons, Item.ptr?, hb]

theorem got_a (text4 : Bytes → Bytes) (a : Bytes) (s : Service) : got (Item.a? text4) a s = (s.ipv4.map text4).toList := by
  unfold got items extraItems
  have hb := belongs_service a s.host (s.host ++ 46 :: localText)
  generalize s.host ++ 46 :: mvrService = full at *
  generalize s.host ++ 46 :: localText = target at *
  cases s.ipv4 <;> cases s.ipv6 <;> by_cases h : s.txt = [] ∨ 255 < s.txt.length <;> simp [h, List.filterMap_cons, Item.a?, belongs_target]

theorem got_aaaa (text6 : Bytes → Bytes) (a : Bytes) (s : Service) : got (Item.aaaa? text6) a s = (s.ipv6.map text6).toList := by
  unfold got items extraItems
  have hb := belongs_service a s.host (s.host ++ 46 :: localText)
  generalize s.host ++ 46 :: mvrService = full at *
  generalize s.host ++ 46 :: localText = target at *
  cases s.ipv4 <;> cases s.ipv6 <;> by_cases h : s.txt = [] ∨ 255 < s.txt.length <;> simp [h, List.filterMap_cons, Item.aaaa?, belongs_target]

theorem got_txt (a : Bytes) (s : Service) : got Item.txt? a s = if s.txt = [] ∨ 255 < s.txt.length then [] else [s.txt] := by
  unfold got items extraItems
  have hb := belongs_service a s.host (s.host ++ 46 :: localText)
  generalize s.host ++ 46 :: mvrService = full at *
  generalize s.host ++ 46 :: localText = target at *
  cases s.ipv4 <;> cases s.ipv6 <;> by_cases h : s.txt = [] ∨ 255 < s.txt.length <;> simp [h, List.filterMap_cons, Item.txt?, belongs_self]

theorem head_flatMap (as : List (Bytes × Option Bytes)) (a : Bytes) (l : List Bytes) (ha : a ∈ as.map (·.1)) :
    (as.flatMap fun x => if x.1 = a then l else []).head? = l.head? := by
  induction as with
  | nil => simp at ha
  | cons x as ih =>
    rw [List.flatMap_cons]
    by_cases hx : x.1 = a
    · rw [if_pos hx]
      cases l with
      | nil =>
        simp
      | cons t l => rfl
    · rw [if_neg hx, List.nil_append]
      refine ih ?_
      rcases List.mem_cons.1 ha with h | h
      · exact absurd h.symm hx
      · exact h

/-- The IPv4 addresses a station sent. -/
def ipsOf (text4 : Bytes → Bytes) (as : List (Bytes × Option Bytes)) (a : Bytes) : List Bytes :=
  setOf (as.flatMap fun x => if x.1 = a then (x.2.map text4).toList else [])

theorem mem_ipsOf (text4 : Bytes → Bytes) (as : List (Bytes × Option Bytes)) (a t : Bytes) :
    t ∈ ipsOf text4 as a ↔ ∃ ip, (a, some ip) ∈ as ∧ text4 ip = t := by
  unfold ipsOf
  rw [mem_setOf, List.mem_flatMap]
  constructor
  · rintro ⟨⟨b, ip⟩, hx, ht⟩
    simp only at ht
    split at ht
    · rename_i hb
      subst hb
      cases ip with
      | none => simp at ht
      | some ip =>
        refine ⟨ip, hx, ?_⟩
        have ht : t = text4 ip := by simpa using ht
        exact ht.symm
    · simp at ht
  · rintro ⟨ip, h, rfl⟩
    exact ⟨_, h, by simp⟩

/-- What a searching station makes of the records of a station. -/
def answerOf (text6 : Bytes → Bytes) (s : Service) (ips : List Bytes) : Xchg.Answer where
  serviceName := chars (s.host ++ 46 :: mvrService)
  hostname := chars (s.host ++ 46 :: mvrService)
  ipV4 := ips.map chars
  ipV6 := (s.ipv6.map fun a => chars (text6 a)).toList
  port := s.port
  txt := if 255 < s.txt.length then [] else chars s.txt

theorem answer_found (text4 text6 : Bytes → Bytes) (st : Bytes → Service) (as : List (Bytes × Option Bytes)) (a : Bytes) (ha : a ∈ as.map (·.1)) :
    answerFor text4 text6 (heard (packets st as)) a ((st a).host ++ 46 :: mvrService) (st a).port
      ((st a).host ++ 46 :: localText) = answerOf text6 (st a) (ipsOf text4 as a) := by
  unfold answerFor answerOf firstOf addresses
  simp only [← List.head?_filterMap, filtered, got_ptr, got_a, got_aaaa, got_txt, head_flatMap as a _ ha]
  congr 1
  · change (setOf _).map chars = _
    cases h6 : (st a).ipv6 with
    | none =>
      have : (as.flatMap fun x => if x.1 = a then (Option.map text6 (none : Option Bytes)).toList else []) = [] := by
        rw [List.flatMap_eq_nil_iff]
        intro x _
        split <;> rfl
      rw [this]
      rfl
    | some ip =>
      rw [setOf_eq (t := text6 ip)]
      · rfl
      · intro t ht
        obtain ⟨x, _, hx⟩ := List.mem_flatMap.1 ht
        split at hx
        · simpa using hx
        · simp at hx
      · obtain ⟨x, hx, e⟩ := List.mem_map.1 ha
        refine List.ne_nil_of_mem (a := text6 ip) (List.mem_flatMap.2 ⟨x, hx, ?_⟩)
        rw [if_pos e]
        simp
  · by_cases ht : (st a).txt = [] ∨ 255 < (st a).txt.length
    · rw [if_pos ht]
      rcases ht with ht | ht
      · rw [ht]; rfl
      · rw [if_pos ht]; rfl
    · rw [if_neg ht, if_neg (fun h => ht (Or.inr h))]
      rfl

theorem items_srv (a : Bytes) (s : Service) : ((items s).map fun i => (⟨a, i⟩ : Heard)).filterMap Heard.srv? =
    [(a, s.host ++ 46 :: mvrService, s.port, s.host ++ 46 :: localText)] := by
  unfold items extraItems
  cases s.ipv4 <;> cases s.ipv6 <;> by_cases h : s.txt = [] ∨ 255 < s.txt.length <;> simp [h, List.filterMap_cons, Heard.srv?]

/-- Stations with different addresses: every one of them gives one answer, made of its own records, however often it answered. -/
theorem collect_found (text4 text6 : Bytes → Bytes) (st : Bytes → Service) (as : List (Bytes × Option Bytes)) :
    collect text4 text6 (heard (packets st as)) =
      (distinct [] (as.map (·.1))).map fun a => answerOf text6 (st a) (ipsOf text4 as a) := by
  have hsrv : (heard (packets st as)).filterMap Heard.srv? =
      (as.map (·.1)).map fun a => (a, (st a).host ++ 46 :: mvrService, (st a).port, (st a).host ++ 46 :: localText) := by
    induction as with
    | nil => rfl
    | cons x as ih =>
      have e : heard (packets st (x :: as)) = (items { st x.1 with ipv4 := x.2 }).map (fun i => ⟨x.1, i⟩) ++ heard (packets st as) := by
        simp [heard, packets]
      rw [e, List.filterMap_append, ih, items_srv]
      rfl
  unfold collect
  rw [hsrv]
  have := distinct_map (fun a => (a, (st a).host ++ 46 :: mvrService, (st a).port, (st a).host ++ 46 :: localText))
    (fun a b h => (Prod.mk.inj h).1) [] (as.map (·.1))
  rw [List.map_nil] at this
  rw [this, List.map_map]
  refine List.map_congr_left fun a ha => ?_
  exact answer_found text4 text6 st as a ((mem_distinct _ _ _).1 ha).1

end Verif.Mdns
