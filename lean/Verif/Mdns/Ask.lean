import Verif.Mdns.Answer

/-!
# Lemmas: questions
-/

namespace Verif.Mdns

theorem services_at : NameAt servicesQuery 12 typesName 42 := by
  have h := name_wire (p := servicesQuery) (off := 12)
    [[95, 115, 101, 114, 118, 105, 99, 101, 115], [95, 100, 110, 115, 45, 115, 100], [95, 117, 100, 112], [108, 111, 99, 97, 108]] ?_
    ⟨[0, 0, 0, 0, 0, 1, 0, 0, 0, 0, 0, 0], [0, 12, 128, 1], by decide, rfl⟩
  · exact h
  · intro l hl
    simp only [List.mem_cons, List.not_mem_nil, or_false] at hl
    rcases hl with rfl | rfl | rfl | rfl <;> exact ⟨by simp, by decide⟩

theorem services_name : ∃ ls fin, NameAt servicesQuery 12 ls fin ∧ ls.length < 6 := ⟨_, _, services_at, by decide⟩

/-- The end of the name of the only question of a packet. -/
theorem questionEnd_name {p n : Bytes} {off fin : Nat} (h : NameIs p off n fin) (s : Bytes) :
    questionEnd (p ++ s) p.length 0 1 off = .ok (some fin) := by
  have hs := h.skip s
  obtain ⟨ls, hn, _⟩ := h
  obtain ⟨ls', fin', hn', hl⟩ := services_name
  have := equal_names hn hn' s [] 6 none none hl
  rw [List.append_nil] at this
  rw [questionEnd, this, bind_ok]
  by_cases hc : sameLabels ls ls' = true
  · rw [if_pos hc]
    simp
  · rw [if_neg hc]
    exact hs

/-- What a station does with a question. -/
def replyTo (service n : Bytes) (type cls : Nat) : Reply :=
  if type = 12 then (if n = dnsSd then .services else if n = service then .service (32768 ≤ cls) else .nothing) else .nothing

theorem hear_question {p n : Bytes} {type cls : Nat} (h : IsQuestion p n type cls) (ht : type ≠ 33) (hc : cls % 32768 = 1) (s : Bytes)
    (fuel : Nat) (hf : 257 ≤ fuel) (service : Bytes) : hear (p ++ s) p.length fuel service = .ok [replyTo service n type cls] := by
  obtain ⟨id, a, u, d, fin, hh, e, hn, ht', hc', hq, rfl⟩ := h
  obtain ⟨⟨y, k0⟩, k1, k2, _, _, _, hle⟩ := header_read hh s
  have g1 := (hq.app s).left
  have g2 := (hq.app s).right
  rw [show (net16 type).length = 2 from rfl] at g2
  rw [hear, listen, if_neg (by omega), k0, bind_ok, k1, bind_ok, k2, bind_ok, questions, questionEnd_name hn s, bind_ok]
  simp only
  rw [g1.u16 ht', bind_ok, g2.u16 hc', bind_ok, if_neg (by omega)]
  have hcb : serviceCallback (p ++ s) p.length fuel service ⟨.question, type, cls, 0, 12, e - 12, 12, e - 12⟩ = .ok (replyTo service n type cls) := by
    rw [serviceCallback, replyTo, if_neg (by simp)]
    simp only
    by_cases h12 : type = 12
    · rw [if_pos h12, if_pos h12]
      have hname : parsePtr (p ++ s) p.length fuel 12 (e - 12) = .ok n := by
        have hb := hn.bounds
        unfold parsePtr
        rcases hn.two with h0 | h2
        · by_cases h2 : 12 + (e - 12) ≤ p.length ∧ 2 ≤ e - 12
          · rw [if_pos h2]
            exact hn.text s fuel hf
          · rw [if_neg h2, h0]
        · rw [if_pos (by omega)]
          exact hn.text s fuel hf
      rw [hname, bind_ok]
      by_cases hd : n = dnsSd
      · rw [if_pos hd, if_pos hd]
      · rw [if_neg hd, if_neg hd]
        by_cases hs : n = service
        · rw [if_pos hs, if_pos hs]
        · rw [if_neg hs, if_neg hs]
    · rw [if_neg h12, if_neg ht, if_neg h12]
  rw [hcb, bind_ok, questions, bind_ok]

/-! ### Several questions -/

theorem lower_same (a b : Byte) : lower a = lower b ↔ SameByte a b := by
  unfold lower SameByte
  have h32 : (32 : Byte).toNat = 32 := rfl
  have ha := a.isLt
  have hb := b.isLt
  constructor
  · intro h
    have h := congrArg BitVec.toNat h
    by_cases h1 : 65 ≤ a.toNat ∧ a.toNat ≤ 90 <;> by_cases h2 : 65 ≤ b.toNat ∧ b.toNat ≤ 90 <;>
      simp only [h1, h2, if_true, if_false, and_self, BitVec.toNat_add, h32] at h
    · left; apply BitVec.eq_of_toNat_eq; omega
    · right; right; omega
    · right; left; omega
    · left; exact BitVec.eq_of_toNat_eq h
  · intro h
    rcases h with h | h | h
    · rw [h]
    · apply BitVec.eq_of_toNat_eq
      rw [if_neg (by omega), if_pos (by omega), BitVec.toNat_add, h32]
      omega
    · apply BitVec.eq_of_toNat_eq
      rw [if_pos (by omega), if_neg (by omega), BitVec.toNat_add, h32]
      omega

theorem same_text : ∀ (a b : Bytes), (0 : Byte) ∉ b → (a.length = b.length ∧ sameNoCase b a = true ↔ SameText a b)
  | [], [], _ => by simp [sameNoCase, SameText.nil]
  | [], b :: bs, _ => by
    refine ⟨fun h => by simp at h, fun h => by cases h⟩
  | a :: as, [], _ => by
    refine ⟨fun h => by simp at h, fun h => by cases h⟩
  | a :: as, b :: bs, h0 => by
    have ih := same_text as bs (fun h => h0 (List.mem_cons_of_mem _ h))
    have hb : b ≠ 0 := fun h => h0 (by rw [h]; exact List.mem_cons_self ..)
    rw [sameNoCase]
    constructor
    · rintro ⟨h1, h2⟩
      by_cases hl : lower b = lower a
      · rw [if_pos hl, if_neg hb] at h2
        exact .cons ((lower_same a b).1 hl.symm) (ih.1 ⟨by simpa using h1, h2⟩)
      · rw [if_neg hl] at h2; cases h2
    · intro h
      cases h with
      | cons h1 h2 =>
        have := ih.2 h2
        rw [if_pos ((lower_same a b).2 h1).symm, if_neg hb]
        exact ⟨by simp [this.1], this.2⟩

theorem same_name : ∀ (as bs : List Bytes), (∀ b ∈ bs, (0 : Byte) ∉ b) → (sameLabels as bs = true ↔ SameName as bs)
  | [], [], _ => by simp [sameLabels, SameName.nil]
  | [], b :: bs, _ => by
    refine ⟨fun h => by simp [sameLabels] at h, fun h => by cases h⟩
  | a :: as, [], _ => by
    refine ⟨fun h => by simp [sameLabels] at h, fun h => by cases h⟩
  | a :: as, b :: bs, h0 => by
    have ih := same_name as bs (fun x hx => h0 x (List.mem_cons_of_mem _ hx))
    have ht := same_text a b (h0 b (List.mem_cons_self ..))
    rw [sameLabels, Bool.and_eq_true, Bool.and_eq_true, beq_iff_eq, ih, ht]
    constructor
    · rintro ⟨h1, h2⟩; exact .cons h1 h2
    · intro h; cases h with | cons h1 h2 => exact ⟨h1, h2⟩

theorem questionEnd_any {p : Bytes} {off fin : Nat} {ls : List Bytes} (h : NameAt p off ls fin) (s : Bytes) (flags total : Nat) :
    (SameName ls typesName ∧ ¬ (flags = 0 ∧ total = 1) ∧ questionEnd (p ++ s) p.length flags total off = .ok none) ∨
    ((SameName ls typesName → flags = 0 ∧ total = 1) ∧ questionEnd (p ++ s) p.length flags total off = .ok (some fin)) := by
  have := equal_names h services_at s [] 6 none none (by decide)
  rw [List.append_nil] at this
  have hsk : skip (p ++ s) p.length ((p ++ s).length + 1) off = .ok (some fin) := skip_name h s _ (by rw [List.length_append]; omega)
  have hsn := same_name ls typesName (by decide)
  by_cases hc : sameLabels ls typesName = true
  · by_cases hft : flags = 0 ∧ total = 1
    · right
      refine ⟨fun _ => hft, ?_⟩
      rw [questionEnd, this, bind_ok, if_pos hc]
      simp [hft]
    · left
      refine ⟨hsn.1 hc, hft, ?_⟩
      rw [questionEnd, this, bind_ok, if_pos hc]
      simp only
      rw [if_pos (by omega)]
  · right
    refine ⟨fun h' => absurd (hsn.2 h') hc, ?_⟩
    rw [questionEnd, this, bind_ok, if_neg hc]
    exact hsk

theorem callback_reply {p : Bytes} {off e : Nat} {q : Question} (h : NameAt p off q.labels e) (h256 : (text q.labels).length ≤ 256)
    (ht : q.type ≠ 33) (s : Bytes) (fuel : Nat) (hf : 257 ≤ fuel) (service : Bytes) :
    serviceCallback (p ++ s) p.length fuel service ⟨.question, q.type, q.cls, 0, off, e - off, off, e - off⟩ = .ok (q.reply service) := by
  have hn : NameIs p off (text q.labels) e := ⟨_, h, rfl, h256⟩
  have hd : text typesName = dnsSd := by decide
  rw [serviceCallback, Question.reply, if_neg (by simp), hd]
  simp only
  by_cases h12 : q.type = 12
  · rw [if_pos h12, if_neg (by simp [h12])]
    have hname : parsePtr (p ++ s) p.length fuel off (e - off) = .ok (text q.labels) := by
      have hb := hn.bounds
      unfold parsePtr
      rcases hn.two with h0 | h2
      · by_cases h2 : off + (e - off) ≤ p.length ∧ 2 ≤ e - off
        · rw [if_pos h2]
          exact hn.text s fuel hf
        · rw [if_neg h2, h0]
      · rw [if_pos (by omega)]
        exact hn.text s fuel hf
    rw [hname, bind_ok]
    split
    · rfl
    · split <;> rfl
  · rw [if_neg h12, if_neg ht, if_pos h12]

theorem questions_replies {p : Bytes} (s : Bytes) (flags total fuel : Nat) (hf : 257 ≤ fuel) (service : Bytes) :
    ∀ (qs : List Question) (off : Nat), QuestionsAt p off qs → (∀ q ∈ qs, q.type ≠ 33) →
    ∃ rs, Replies service (flags = 0 ∧ total = 1) qs rs ∧
      questions (p ++ s) p.length flags total (serviceCallback (p ++ s) p.length fuel service) qs.length off = .ok rs
  | [], off, _, _ => ⟨[], .none, rfl⟩
  | q :: qs, off, h, h33 => by
    cases h with
    | @one _ e _ _ hn h256 ht hc hq hr =>
      have g1 := (hq.app s).left
      have g2 := (hq.app s).right
      rw [show (net16 q.type).length = 2 from rfl] at g2
      rw [List.length_cons, questions]
      rcases questionEnd_any hn s flags total with ⟨h1, h2, h3⟩ | ⟨h1, h3⟩
      · refine ⟨[], .types h1 h2, ?_⟩
        rw [h3, bind_ok]
      · rw [h3, bind_ok]
        simp only
        rw [g1.u16 ht, bind_ok, g2.u16 hc, bind_ok]
        by_cases hcl : q.cls % 32768 = 1
        · obtain ⟨rs, hrs, hrun⟩ := questions_replies s flags total fuel hf service qs (e + 4) hr (fun x hx => h33 x (List.mem_cons_of_mem _ hx))
          refine ⟨_, .one h1 hcl hrs, ?_⟩
          rw [if_neg (by omega), callback_reply hn h256 (h33 q (List.mem_cons_self ..)) s fuel hf service, bind_ok, hrun, bind_ok]
        · refine ⟨[], .cls hcl, ?_⟩
          rw [if_pos hcl]

/-- The question for stations of MVR-xchange. -/
theorem query_packet (ephemeral : Bool) : ∃ q, querySend 2048 12 mvrService 0 ephemeral = some q ∧
    IsQuestion q mvrService 12 (if ephemeral then 0x8001 else 1) := by
  have hm : make (2048 - 17) mvrService = some (wire mvrLabels ++ [0]) := by decide +kernel
  refine ⟨net16 0 ++ net16 0 ++ net16 1 ++ net16 0 ++ net16 0 ++ net16 0 ++ (wire mvrLabels ++ [0]) ++ net16 12 ++ net16 (if ephemeral then 0x8001 else 1), ?_, ?_⟩
  · rw [querySend, if_neg (by decide), hm]
    rfl
  · refine ⟨0, 0, 0, 0, 40, ⟨by omega, by omega, by omega, by omega, by omega, ⟨[], _, by simp only [List.nil_append, List.append_assoc]; rfl, rfl⟩⟩, 36, ?_,
      by omega, by cases ephemeral <;> decide, ⟨net16 0 ++ net16 0 ++ net16 1 ++ net16 0 ++ net16 0 ++ net16 0 ++ (wire mvrLabels ++ [0]), [],
        by simp only [List.append_nil, List.append_assoc], by decide⟩, rfl⟩
    refine ⟨mvrLabels, (mvr_at ⟨net16 0 ++ net16 0 ++ net16 1 ++ net16 0 ++ net16 0 ++ net16 0, net16 12 ++ net16 (if ephemeral then 0x8001 else 1),
      by simp only [List.append_assoc], rfl⟩).2.2, mvr_text, by decide⟩

end Verif.Mdns
