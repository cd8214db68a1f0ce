import Verif.Xchg.Service
import Verif.Uuid.Props
import Verif.Str.Lemmas

/-!
# C22, C23, C45, C50: members, recipients and discovery of MVR-xchange
-/

namespace Verif.Xchg

open Verif.Uuid Verif.Str

/-! ## C45: discovery -/

/-- What makes two answers the same station. -/
def Answer.key (a : Answer) : Nat × List (List Char) × List (List Char) := (a.port, a.ipV4, a.ipV6)

/-- An answer that belongs in the list: it offers the service, has an IPv4 address and is not ourselves. -/
def Wanted (own : List (List Char)) (a : Answer) : Prop :=
  (∃ pre, a.serviceName = pre ++ "_mvrxchange._tcp.local.".toList) ∧ a.ipV4 ≠ [] ∧ ∀ ip ∈ a.ipV4, ip ++ ':' :: natText a.port ∉ own

theorem accepts_iff (own : List (List Char)) (out : List Answer) (a : Answer) :
    accepts own out a = true ↔ (∀ r ∈ out, r.key ≠ a.key) ∧ Wanted own a := by
  unfold accepts Wanted Answer.key
  simp only [Bool.and_eq_true, Bool.not_eq_true', List.any_eq_false, List.isSuffixOf_iff_suffix, beq_iff_eq, List.isEmpty_eq_false_iff,
    ipPort, List.any_eq_true, not_exists, not_and, ne_eq, Prod.mk.injEq]
  constructor
  · rintro ⟨⟨⟨h1, h2⟩, h3⟩, ⟨t, h4⟩⟩
    refine ⟨fun r hr e1 e2 e3 => h1 r hr ⟨e1.symm, e2.symm⟩ e3.symm, ⟨t, h4.symm⟩, h2, fun ip hip ho => h3 ip hip _ ho rfl⟩
  · rintro ⟨h1, ⟨t, h4⟩, h2, h3⟩
    exact ⟨⟨⟨fun r hr e1 e3 => h1 r hr e1.1.symm e1.2.symm e3.symm, h2⟩, fun ip hip o ho e => h3 ip hip (e ▸ ho)⟩, ⟨t, h4.symm⟩⟩

/-- Filtering, as a recursion over the answers with the accepted ones so far. -/
theorem filterQueries_spec (own : List (List Char)) (answers out : List Answer)
    (hd : out.Pairwise fun a b => a.key ≠ b.key) (hw : ∀ a ∈ out, Wanted own a) :
    ∃ r, answers.foldl (fun out a => if accepts own out a then out ++ [a] else out) out = out ++ r ∧
      r.Sublist answers ∧ ((out ++ r).Pairwise fun a b => a.key ≠ b.key) ∧ (∀ a ∈ out ++ r, Wanted own a) ∧
      ∀ a ∈ answers, Wanted own a → ∃ b ∈ out ++ r, b.key = a.key := by
  induction answers generalizing out with
  | nil => exact ⟨[], by simp, by simp, by simpa using hd, by simpa using hw, by simp⟩
  | cons a l ih =>
    rw [List.foldl_cons]
    by_cases h : accepts own out a = true
    · rw [if_pos h]
      obtain ⟨h1, h2⟩ := (accepts_iff own out a).1 h
      obtain ⟨r, e1, e2, e3, e4, e5⟩ := ih (out ++ [a])
        (by
          rw [List.pairwise_append]
          exact ⟨hd, List.pairwise_singleton _ _, fun x hx y hy => by rw [List.mem_singleton.1 hy]; exact h1 x hx⟩)
        (by
          intro b hb
          rcases List.mem_append.1 hb with hb | hb
          · exact hw b hb
          · rw [List.mem_singleton.1 hb]; exact h2)
      refine ⟨a :: r, ?_, List.Sublist.cons_cons a e2, ?_, ?_, ?_⟩
      · rw [e1]; simp
      · simpa using e3
      · simpa using e4
      · intro b hb hwb
        rcases List.mem_cons.1 hb with rfl | hb
        · exact ⟨b, by simp, rfl⟩
        · simpa using e5 b hb hwb
    · rw [if_neg h]
      obtain ⟨r, e1, e2, e3, e4, e5⟩ := ih out hd hw
      refine ⟨r, e1, List.Sublist.cons a e2, e3, e4, ?_⟩
      intro b hb hwb
      rcases List.mem_cons.1 hb with rfl | hb
      · rw [accepts_iff, not_and] at h
        by_cases hk : ∀ r ∈ out, r.key ≠ b.key
        · exact absurd hwb (h hk)
        · simp only [Classical.not_forall, Classical.not_not, ne_eq] at hk
          obtain ⟨c, hc, he⟩ := hk
          exact ⟨c, List.mem_append_left _ hc, he⟩
      · exact e5 b hb hwb

/-- The list of discovered stations keeps answers in their order; no two entries have the same port and addresses; every
entry offers the service, has an IPv4 address and is not one of our own sockets; and every such answer is represented. -/
theorem C45_filter (own : List (List Char)) (answers : List Answer) :
    (filterQueries own answers).Sublist answers ∧
    ((filterQueries own answers).Pairwise fun a b => a.key ≠ b.key) ∧
    (∀ a ∈ filterQueries own answers, Wanted own a) ∧
    ∀ a ∈ answers, Wanted own a → ∃ b ∈ filterQueries own answers, b.key = a.key := by
  obtain ⟨r, e1, e2, e3, e4, e5⟩ := filterQueries_spec own answers [] List.Pairwise.nil (by simp)
  unfold filterQueries
  rw [e1]
  simpa using ⟨e2, e3, e4, e5⟩

/-- Filtering again changes nothing. -/
theorem C45_idempotent (own : List (List Char)) (answers : List Answer) :
    filterQueries own (filterQueries own answers) = filterQueries own answers := by
  obtain ⟨h1, h2, h3, h4⟩ := C45_filter own (filterQueries own answers)
  obtain ⟨-, g2, g3, -⟩ := C45_filter own answers
  refine h1.eq_of_length_le ?_
  have key : ∀ (l m : List Answer), m.Sublist l → (l.Pairwise fun a b => a.key ≠ b.key) →
      (∀ a ∈ l, ∃ b ∈ m, b.key = a.key) → l.length ≤ m.length := by
    intro l m hs
    induction hs with
    | slnil => intros; simp
    | @cons m l a hs ih =>
      intro hp hex
      rw [List.pairwise_cons] at hp
      obtain ⟨b, hb, he⟩ := hex a (by simp)
      exact absurd he.symm (hp.1 b (hs.subset hb))
    | @cons_cons m l a hs ih =>
      intro hp hex
      rw [List.pairwise_cons] at hp
      have := ih hp.2 (fun c hc => by
        obtain ⟨b, hb, he⟩ := hex c (by simp [hc])
        rcases List.mem_cons.1 hb with rfl | hb
        · exact absurd he (hp.1 c hc)
        · exact ⟨b, hb, he⟩)
      simpa using this
  exact key _ _ h1 g2 (fun a ha => h4 a ha (g3 a ha))

/-- A station seen twice, a foreign service and our own socket: one entry remains. -/
example : (filterQueries ["10.0.0.1:80".toList]
    [⟨"A._mvrxchange._tcp.local.".toList, [], ["10.0.0.2".toList], [], 80, []⟩,
     ⟨"A._mvrxchange._tcp.local.".toList, [], ["10.0.0.2".toList], [], 80, []⟩,
     ⟨"A._mvrxchange._tcp.local.".toList, [], ["10.0.0.1".toList], [], 80, []⟩,
     ⟨"_http._tcp.local.".toList, [], ["10.0.0.3".toList], [], 80, []⟩]).length = 1 := by decide +kernel

/-- Indexes below the count give the stations in order, indexes above the count are refused. -/
theorem C45_at_partial (l : List Station) (i : Nat) (h : i ≠ l.length) : localServiceAt l i = .ok l[i]? := by
  unfold localServiceAt
  by_cases h1 : l.length < i
  · rw [if_pos h1, List.getElem?_eq_none (by omega)]
  · rw [if_neg h1, List.getElem?_eq_getElem (by omega)]

/-- **Violation.** The index one past the last station is not refused: the vector is read out of bounds, in every state. -/
theorem C45_at_violated (l : List Station) : localServiceAt l l.length = .error .undefined := by
  unfold localServiceAt
  rw [if_neg (by omega), List.getElem?_eq_none (by omega)]

/-- The group name announced contains only characters allowed in it, keeps all of those in order, and a valid name is
unchanged. -/
theorem C45_service_name (s : List Char) :
    (∀ c ∈ filterServiceName s, c.isAlphanum = true ∨ c = '-' ∨ c = '_') ∧ (filterServiceName s).Sublist s ∧
    (∀ c, c.isAlphanum = true ∨ c = '-' ∨ c = '_' → (filterServiceName s).count c = s.count c) ∧
    ((∀ c ∈ s, c.isAlphanum = true ∨ c = '-' ∨ c = '_') → filterServiceName s = s) := by
  have key : ∀ c : Char, serviceChar c = true ↔ (c.isAlphanum = true ∨ c = '-' ∨ c = '_') := by
    intro c
    unfold serviceChar Char.isAlphanum Char.isAlpha Char.isUpper Char.isLower Char.isDigit
    simp only [Bool.or_eq_true, Bool.and_eq_true, decide_eq_true_eq, beq_iff_eq, Char.le_def, ge_iff_le]
    constructor
    · rintro ((((h | h) | h) | h) | h)
      · exact Or.inl (Or.inl (Or.inr h))
      · exact Or.inl (Or.inl (Or.inl h))
      · exact Or.inl (Or.inr h)
      · exact Or.inr (Or.inl h)
      · exact Or.inr (Or.inr h)
    · rintro (((h | h) | h) | h | h)
      · exact Or.inl (Or.inl (Or.inl (Or.inr h)))
      · exact Or.inl (Or.inl (Or.inl (Or.inl h)))
      · exact Or.inl (Or.inl (Or.inr h))
      · exact Or.inl (Or.inr h)
      · exact Or.inr h
  unfold filterServiceName
  refine ⟨fun c hc => (key c).1 (List.mem_filter.1 hc).2, List.filter_sublist, fun c hc => List.count_filter ((key c).2 hc), fun h => ?_⟩
  exact List.filter_eq_self.2 fun c hc => (key c).2 (h c hc)

example : filterServiceName "My Group/1_a".toList = "MyGroup1_a".toList := by decide

/-! ## C22: the member list -/

/-- A history of events. -/
def Service.run (s : Service) (es : List Event) : Service := es.foldl Service.step s

theorem putMember_mem (m : Member) (l : List Member) : m ∈ putMember m l := by
  induction l with
  | nil => simp [putMember]
  | cons x l ih =>
    unfold putMember
    split
    · simp
    · simp [ih]

theorem putMember_old (m : Member) (l : List Member) (x : Member) (hx : x ∈ l) (hne : sameAddress x m = false) :
    x ∈ putMember m l := by
  induction l with
  | nil => simp at hx
  | cons y l ih =>
    unfold putMember
    rcases List.mem_cons.1 hx with rfl | hx
    · rw [hne]; simp
    · split
      · simp [hx]
      · simp [ih hx]

theorem putMember_new (m : Member) (l : List Member) (x : Member) (hx : x ∈ putMember m l) : x = m ∨ x ∈ l := by
  induction l with
  | nil => simpa [putMember] using hx
  | cons y l ih =>
    unfold putMember at hx
    split at hx
    · rcases List.mem_cons.1 hx with h | h
      · exact Or.inl h
      · exact Or.inr (by simp [h])
    · rcases List.mem_cons.1 hx with h | h
      · exact Or.inr (by simp [h])
      · rcases ih h with h | h
        · exact Or.inl h
        · exact Or.inr (by simp [h])

theorem sameIps_refl (l : List (List Char)) : sameIps l l = true := by
  induction l with
  | nil => rfl
  | cons a l ih => simp [sameIps, ih, eqNoCase]

theorem sameIps_symm (l m : List (List Char)) : sameIps l m = sameIps m l := by
  induction l generalizing m with
  | nil => cases m <;> rfl
  | cons a l ih =>
    cases m with
    | nil => rfl
    | cons b m =>
      simp only [sameIps, ih, eqNoCase]
      congr 1
      exact decide_eq_decide.2 eq_comm

theorem sameIps_trans (l m n : List (List Char)) (h1 : sameIps l m = true) (h2 : sameIps m n = true) : sameIps l n = true := by
  induction l generalizing m n with
  | nil => cases m with
    | nil => exact h2
    | cons b m => simp [sameIps] at h1
  | cons a l ih =>
    cases m with
    | nil => simp [sameIps] at h1
    | cons b m =>
      cases n with
      | nil => simp [sameIps] at h2
      | cons c n =>
        simp only [sameIps, Bool.and_eq_true, eqNoCase, decide_eq_true_eq] at *
        exact ⟨h1.1.trans h2.1, ih m n h1.2 h2.2⟩

/-- Having the same address is an equivalence relation. -/
theorem sameAddress_equiv (a b c : Member) : sameAddress a a = true ∧ sameAddress a b = sameAddress b a ∧
    (sameAddress a b = true → sameAddress b c = true → sameAddress a c = true) := by
  unfold sameAddress
  refine ⟨by simp [sameIps_refl], ?_, ?_⟩
  · rw [sameIps_symm]
    congr 1
    exact Bool.eq_iff_iff.2 (by rw [beq_iff_eq, beq_iff_eq]; exact eq_comm)
  · simp only [Bool.and_eq_true, beq_iff_eq]
    rintro ⟨h1, h2⟩ ⟨h3, h4⟩
    exact ⟨sameIps_trans _ _ _ h1 h3, h2.trans h4⟩

theorem putMember_distinct (m : Member) (l : List Member) (h : l.Pairwise fun a b => sameAddress a b = false) :
    (putMember m l).Pairwise fun a b => sameAddress a b = false := by
  induction l with
  | nil => simp [putMember]
  | cons x l ih =>
    rw [List.pairwise_cons] at h
    unfold putMember
    by_cases hx : sameAddress x m = true
    · rw [if_pos hx, List.pairwise_cons]
      refine ⟨fun y hy => ?_, h.2⟩
      by_cases hm : sameAddress m y = true
      · exact absurd ((sameAddress_equiv x m y).2.2 hx hm) (by rw [h.1 y hy]; decide)
      · simpa using hm
    · rw [if_neg hx, List.pairwise_cons]
      refine ⟨fun y hy => ?_, ih h.2⟩
      rcases putMember_new m l y hy with rfl | hy
      · simpa using hx
      · exact h.1 y hy

/-- A JOIN from a discovered station makes it a member with the discovered data, keeps all members at other addresses and
adds nobody else. -/
theorem C22_join (s : Service) (u : Words) (st : Station) (hst : s.discovered.find? (fun x => x.uuid == u) = some st) :
    let m : Member := { ip := st.ipV4, port := st.port, name := st.name, uuid := u }
    m ∈ (s.step (.join u)).group ∧ (∀ x ∈ s.group, sameAddress x m = false → x ∈ (s.step (.join u)).group) ∧
    (∀ x ∈ (s.step (.join u)).group, x = m ∨ x ∈ s.group) := by
  intro m
  have hu : st.uuid = u := by simpa using List.find?_some hst
  have hm : singleMember u s.discovered = some m := by
    unfold singleMember
    rw [hst]
    simp only [Option.map_some, Station.member, hu]
    rfl
  have hg : (s.step (.join u)).group = putMember m s.group := by
    simp only [Service.step, hm]
  rw [hg]
  exact ⟨putMember_mem m _, fun x hx hne => putMember_old m _ x hx hne, fun x hx => putMember_new m _ x hx⟩

/-- A JOIN from a station not discovered yet changes no member; it is remembered until discovery has run. -/
theorem C22_join_unknown (s : Service) (u : Words) (h : ∀ x ∈ s.discovered, x.uuid ≠ u) :
    (s.step (.join u)).group = s.group ∧ (s.step (.join u)).pending = s.pending ++ [u] := by
  have : singleMember u s.discovered = none := by
    unfold singleMember
    rw [List.find?_eq_none.2 (by simpa using h)]
    rfl
  simp [Service.step, this]

/-- Messages and discovery that never let a waiting JOIN run. -/
def Event.Simple : Event → Prop
  | .tick _ => True
  | .join _ => True
  | .leave _ => True
  | .disconnect => True
  | _ => False

/-- The part that holds: starting from a group with different addresses, after any history of joins, leaves and discovery
in which no waiting JOIN was completed later, no two members have the same address. -/
theorem C22_once_partial (s : Service) (es : List Event) (hes : ∀ e ∈ es, e.Simple)
    (h : s.group.Pairwise fun a b => sameAddress a b = false) :
    (s.run es).group.Pairwise fun a b => sameAddress a b = false := by
  induction es generalizing s with
  | nil => exact h
  | cons e es ih =>
    refine ih (s.step e) (fun e' he' => hes e' (by simp [he'])) ?_
    have hs := hes e (by simp)
    cases e with
    | tick found => exact h
    | join u =>
      simp only [Service.step]
      split
      · exact putMember_distinct _ _ h
      · exact h
    | leave u =>
      simp only [Service.step]
      split
      · exact h
      · exact h.filter _
    | disconnect => exact h
    | posted found => exact hs.elim
    | connect a b c => exact hs.elim

/-- **Violation.** A LEAVE from a station that is still being discovered changes nothing at all: the station stays in the
member list. -/
theorem C22_leave_violated (s : Service) (u : Words) (h : ∃ x ∈ s.discovered, x.uuid = u) : s.step (.leave u) = s := by
  obtain ⟨x, hx, hu⟩ := h
  have : ∃ m, singleMember u s.discovered = some m := by
    unfold singleMember
    cases hf : s.discovered.find? (fun x => x.uuid == u) with
    | none =>
      rw [List.find?_eq_none] at hf
      exact absurd (by simpa using hu) (hf x hx)
    | some st => exact ⟨_, rfl⟩
  obtain ⟨m, hm⟩ := this
  simp only [Service.step, hm]

/-- **Violation.** No LEAVE ever removes a member whose UUID is not zero, whoever leaves. -/
theorem C22_leave_never_violated (s : Service) (u : Words) (m : Member) (hm : m ∈ s.group) (h : m.uuid ≠ (0, 0, 0, 0)) :
    m ∈ (s.step (.leave u)).group := by
  simp only [Service.step]
  split
  · exact hm
  · exact List.mem_filter.2 ⟨hm, by simpa using h⟩

/-- **Violation.** A LEAVE from an unknown station removes instead every member with the zero UUID (stations whose
announcement carried none). -/
theorem C22_leave_unknown_violated (s : Service) (u : Words) (h : ∀ x ∈ s.discovered, x.uuid ≠ u) (m : Member) :
    m ∈ (s.step (.leave u)).group ↔ m ∈ s.group ∧ m.uuid ≠ (0, 0, 0, 0) := by
  have : singleMember u s.discovered = none := by
    unfold singleMember
    rw [List.find?_eq_none.2 (by simpa using h)]
    rfl
  simp only [Service.step, this, List.mem_filter, bne_iff_ne]

/-- **Violation**, as a history: a station joins, then leaves, and is a member afterwards. -/
theorem C22_history_violated (s : Service) (u : Words) (st : Station)
    (hst : s.discovered.find? (fun x => x.uuid == u) = some st) :
    ∃ m ∈ (s.run [.join u, .leave u]).group, m.uuid = u := by
  have h := (C22_join s u st hst).1
  refine ⟨{ ip := st.ipV4, port := st.port, name := st.name, uuid := u }, ?_, rfl⟩
  · show _ ∈ ((s.step (.join u)).step (.leave u)).group
    have hd : (s.step (.join u)).discovered = s.discovered := by
      simp only [Service.step]
      split <;> rfl
    rw [C22_leave_violated (s.step (.join u)) u (by
      rw [hd]
      exact ⟨st, List.mem_of_find?_eq_some hst, by simpa using List.find?_some hst⟩)]
    exact h

example : (Service.run ⟨[], [⟨"G._mvrxchange._tcp.local.".toList, (1, 2, 3, 4), "A".toList, ["10.0.0.2".toList], [], 4000⟩], true, [], []⟩
    [.join (1, 2, 3, 4), .leave (1, 2, 3, 4)]).group.length = 1 := by decide +kernel

/-- **Violation.** A station that sends JOIN twice before it is discovered becomes a member twice. -/
theorem C22_twice_violated (s : Service) (u : Words) (st : Station) (found : List Station) (hp : s.pending = [])
    (hd : ∀ x ∈ s.discovered, x.uuid ≠ u) (hst : found.find? (fun x => x.uuid == u) = some st) :
    (s.run [.join u, .join u, .posted found, .posted found]).group =
      s.group ++ [{ ip := st.ipV4, port := st.port, name := st.name, uuid := u }, { ip := st.ipV4, port := st.port, name := st.name, uuid := u }] := by
  have hu : st.uuid = u := by simpa using List.find?_some hst
  have h1 : singleMember u s.discovered = none := by
    unfold singleMember
    rw [List.find?_eq_none.2 (by simpa using hd)]
    rfl
  have h2 : singleMember u found = some { ip := st.ipV4, port := st.port, name := st.name, uuid := u } := by
    unfold singleMember
    rw [hst]
    simp only [Option.map_some, Station.member, hu]
  simp [Service.run, Service.step, h1, h2, hp]

/-- **Violation.** The group is not checked: a station of another group that sends JOIN becomes a member. -/
theorem C22_other_group_violated :
    ∃ (mine : List Char) (found : List Station) (u : Words), (∀ st ∈ found, st.service ≠ mine ++ ".".toList ++ serviceText) ∧
      ∃ m ∈ (Service.start.run [.connect mine [] found, .join u]).group, m.uuid = u :=
  ⟨"Mine".toList, [⟨"Other._mvrxchange._tcp.local.".toList, (1, 2, 3, 4), "A".toList, ["10.0.0.2".toList], [], 4000⟩], (1, 2, 3, 4),
    by decide +kernel, ⟨["10.0.0.2".toList], 4000, "A".toList, (1, 2, 3, 4)⟩, by decide +kernel, rfl⟩

/-- **Violation.** A station that comes back on another port is a member twice. -/
theorem C22_moved_violated (ip name : List Char) (u : Words) (p q : Nat) (hpq : p ≠ q) (service : List Char) :
    (Service.start.run [.tick [⟨service, u, name, [ip], [], p⟩], .join u, .tick [⟨service, u, name, [ip], [], q⟩], .join u]).group =
      [⟨[ip], p, name, u⟩, ⟨[ip], q, name, u⟩] := by
  simp [Service.run, Service.step, Service.start, singleMember, Station.member, putMember, sameAddress, hpq]

/-- Stations an event tells the service about. -/
def Event.found : Event → List Station
  | .tick l => l
  | .posted l => l
  | .connect _ _ l => l
  | _ => []

/-- Every member, at every point of every history, is a station that discovery reported at some time. -/
theorem C22_members_discovered (es : List Event) (m : Member) (hm : m ∈ (Service.start.run es).group) :
    ∃ e ∈ es, ∃ st ∈ e.found, m = { ip := st.ipV4, port := st.port, name := st.name, uuid := st.uuid } := by
  have hsingle : ∀ (u : Words) (l : List Station) (x : Member), singleMember u l = some x → ∃ st ∈ l, x = st.member := by
    intro u l x hx
    unfold singleMember at hx
    rw [Option.map_eq_some_iff] at hx
    obtain ⟨st, h1, h2⟩ := hx
    exact ⟨st, List.mem_of_find?_eq_some h1, h2.symm⟩
  have key : ∀ (es past : List Event) (s : Service),
      (∀ st ∈ s.discovered, ∃ e ∈ past, st ∈ e.found) → (∀ m ∈ s.group, ∃ e ∈ past, ∃ st ∈ e.found, m = st.member) →
      ∀ m ∈ (s.run es).group, ∃ e ∈ past ++ es, ∃ st ∈ e.found, m = st.member := by
    intro es
    induction es with
    | nil => intro past s _ h m hm; simpa using h m hm
    | cons e es ih =>
      intro past s hd hg m hm
      have := ih (past ++ [e]) (s.step e) ?_ ?_ m hm
      · simpa using this
      · intro st hst
        have old : ∀ st ∈ s.discovered, ∃ e' ∈ past ++ [e], st ∈ e'.found := fun st h => by
          obtain ⟨e', h1, h2⟩ := hd st h
          exact ⟨e', by simp [h1], h2⟩
        cases e with
        | tick l => exact ⟨.tick l, by simp, hst⟩
        | join u =>
          simp only [Service.step] at hst
          split at hst <;> exact old st hst
        | posted l =>
          simp only [Service.step] at hst
          split at hst
          · exact old st hst
          · split at hst <;> exact ⟨.posted l, by simp, hst⟩
        | leave u =>
          simp only [Service.step] at hst
          split at hst <;> exact old st hst
        | connect a b l =>
          simp only [Service.step] at hst
          split at hst
          · exact old st hst
          · exact ⟨.connect a b l, by simp, hst⟩
        | disconnect => exact old st hst
      · intro x hx
        have old : ∀ x ∈ s.group, ∃ e' ∈ past ++ [e], ∃ st ∈ e'.found, x = st.member := fun x h => by
          obtain ⟨e', h1, h2⟩ := hg x h
          exact ⟨e', by simp [h1], h2⟩
        cases e with
        | tick l => exact old x hx
        | join u =>
          simp only [Service.step] at hx
          split at hx
          · rename_i y hy
            rcases putMember_new _ _ _ hx with rfl | hx
            · obtain ⟨st, h1, h2⟩ := hsingle _ _ _ hy
              obtain ⟨e', h3, h4⟩ := hd st h1
              exact ⟨e', by simp [h3], st, h4, h2⟩
            · exact old x hx
          · exact old x hx
        | posted l =>
          simp only [Service.step] at hx
          split at hx
          · exact old x hx
          · split at hx
            · rename_i y hy
              rcases List.mem_append.1 hx with hx | hx
              · exact old x hx
              · rw [List.mem_singleton] at hx
                subst hx
                obtain ⟨st, h1, h2⟩ := hsingle _ _ _ hy
                exact ⟨.posted l, by simp, st, h1, h2⟩
            · exact old x hx
        | leave u =>
          simp only [Service.step] at hx
          split at hx
          · exact old x hx
          · exact old x (List.mem_filter.1 hx).1
        | connect a b l =>
          simp only [Service.step, membersOf] at hx
          rw [List.mem_map] at hx
          obtain ⟨st, h1, h2⟩ := hx
          have h3 := (List.mem_filter.1 h1).1
          split at h3
          · obtain ⟨e', h4, h5⟩ := hd st h3
            exact ⟨e', by simp [h4], st, h5, h2.symm⟩
          · exact ⟨.connect a b l, by simp, st, h3, h2.symm⟩
        | disconnect => exact old x hx
  obtain ⟨e, he, st, hst, rfl⟩ := key es [] Service.start (by simp [Service.start]) (by simp [Service.start]) m hm
  exact ⟨e, by simpa using he, st, hst, rfl⟩

/-- Connecting to a group makes exactly the discovered stations of that group the members. -/
theorem C22_connect (s : Service) (name : List Char) (own : List (List Char)) (found : List Station) (m : Member) :
    m ∈ (s.step (.connect name own found)).group ↔
      ∃ st ∈ (if s.initialised then s.discovered else found), st.service = filterServiceName name ++ ".".toList ++ "_mvrxchange._tcp.local.".toList ∧
        m = { ip := st.ipV4, port := st.port, name := st.name, uuid := st.uuid } := by
  have e : filterServiceName name ++ ".".toList ++ "_mvrxchange._tcp.local.".toList = filterServiceName name ++ '.' :: serviceText := by
    rw [List.append_assoc]; rfl
  rw [e]
  simp only [Service.step, membersOf, List.mem_map, List.mem_filter, beq_iff_eq, Station.member]
  constructor
  · rintro ⟨st, ⟨h1, h2⟩, rfl⟩
    exact ⟨st, h1, h2, rfl⟩
  · rintro ⟨st, h1, h2, rfl⟩
    exact ⟨st, ⟨h1, h2⟩, rfl⟩

/-! ## C23: recipients -/

/-- A message addressed to nobody in particular goes to every address of every member, as often as it occurs. -/
theorem C23_all (group : List Member) : targets group [] = group.flatMap fun m => m.ip.map fun ip => (ip, m.port) := by
  unfold targets
  congr 1
  exact List.filter_eq_self.2 fun _ _ => rfl

/-- A message addressed to stations goes to the addresses of exactly those members. -/
theorem C23_addressed (group : List Member) (filter : List Words) (hf : filter ≠ []) (ip : List Char) (port : Nat) :
    (ip, port) ∈ targets group filter ↔ ∃ m ∈ group, m.uuid ∈ filter ∧ ip ∈ m.ip ∧ m.port = port := by
  unfold targets
  simp only [List.mem_flatMap, List.mem_filter, List.mem_map, Prod.mk.injEq, Bool.or_eq_true, List.contains_iff_mem]
  have : filter.isEmpty = false := by cases filter <;> simp_all
  simp only [this, Bool.false_eq_true, false_or]
  constructor
  · rintro ⟨m, ⟨h1, h2⟩, x, h3, rfl, rfl⟩
    exact ⟨m, h1, h2, h3, rfl⟩
  · rintro ⟨m, h1, h2, h3, rfl⟩
    exact ⟨m, ⟨h1, h2⟩, ip, h3, rfl, rfl⟩

/-- With an address list, members that are not addressed add nothing and addressed ones add all their addresses once. -/
theorem C23_addressed_count (group : List Member) (filter : List Words) (hf : filter ≠ []) (t : List Char × Nat) :
    (targets group filter).count t =
      ((group.filter fun m => decide (m.uuid ∈ filter)).map fun m => if m.port = t.2 then m.ip.count t.1 else 0).sum := by
  have : filter.isEmpty = false := by cases filter <;> simp_all
  unfold targets
  simp only [this, Bool.false_or, List.contains_iff_mem]
  generalize hg : (group.filter fun m => decide (m.uuid ∈ filter)) = g
  have e : (group.filter fun m => filter.contains m.uuid) = g := by
    rw [← hg]
    congr 1
    funext m
    exact Bool.eq_iff_iff.2 (by simp)
  rw [e]
  clear hg e this
  have hm : ∀ m : Member, (m.ip.map fun ip => (ip, m.port)).count t = if m.port = t.2 then m.ip.count t.1 else 0 := by
    intro m
    obtain ⟨ip, port⟩ := t
    induction m.ip with
    | nil => simp
    | cons a l ih =>
      rw [List.map_cons, List.count_cons, ih, List.count_cons]
      by_cases hp : m.port = port
      · simp [hp]
      · simp [hp]
  induction g with
  | nil => rfl
  | cons m g ih => rw [List.flatMap_cons, List.count_append, ih, List.map_cons, List.sum_cons, hm]

/-- The part that holds: if every member has one address and addresses differ, every member gets the message exactly once
and there is no other transmission. -/
theorem C23_once_partial (group : List Member) (h1 : ∀ m ∈ group, m.ip.length = 1)
    (hd : group.Pairwise fun a b => (a.ip, a.port) ≠ (b.ip, b.port)) :
    (targets group []).length = group.length ∧ (targets group []).Nodup ∧
      ∀ m ∈ group, ∀ ip ∈ m.ip, (targets group []).count (ip, m.port) = 1 := by
  rw [C23_all]
  have e : ∀ g : List Member, (∀ m ∈ g, m.ip.length = 1) →
      (g.flatMap fun m => m.ip.map fun ip => (ip, m.port)) = g.map fun m => (m.ip.headD [], m.port) := by
    intro g hg
    induction g with
    | nil => rfl
    | cons m g ih =>
      rw [List.flatMap_cons, ih (fun x hx => hg x (by simp [hx])), List.map_cons]
      have := hg m (by simp)
      match hm : m.ip, this with
      | [a], _ => rfl
  have hnd : (group.map fun m => (m.ip.headD [], m.port)).Nodup := by
    rw [List.Nodup, List.pairwise_map]
    refine hd.imp_of_mem ?_
    intro a b ha hb hab he
    have ea := h1 a ha
    have eb := h1 b hb
    match hia : a.ip, ea, hib : b.ip, eb with
    | [x], _, [y], _ =>
      simp only [hia, hib, List.headD_cons, Prod.mk.injEq] at he
      exact hab (by rw [hia, hib, he.1, he.2])
  rw [e group h1]
  refine ⟨by simp, hnd, fun m hm ip hip => ?_⟩
  rw [hnd.count, if_pos]
  rw [List.mem_map]
  refine ⟨m, hm, ?_⟩
  have := h1 m hm
  match hmi : m.ip, this with
  | [a], _ =>
    rw [hmi, List.mem_singleton] at hip
    rw [hip]
    rfl

example : ∃ group : List Member, group.length = 2 ∧ (∀ m ∈ group, m.ip.length = 1) ∧
    group.Pairwise fun a b => (a.ip, a.port) ≠ (b.ip, b.port) :=
  ⟨[⟨["10.0.0.2".toList], 4000, "A".toList, (1, 0, 0, 0)⟩, ⟨["10.0.0.2".toList], 4001, "B".toList, (2, 0, 0, 0)⟩], rfl, by decide, by decide⟩

/-- **Violation.** A station announcing several addresses (one per network adapter) gets the message once per address. -/
theorem C23_adapters_violated (m : Member) : (targets [m] []).length = m.ip.length := by
  rw [C23_all]; simp

/-- Which stations a message is for: COMMIT and REQUEST carry a list, all others go to everybody. -/
theorem C23_recipients (c : Commit) (f : Words) (s : List Words) (j : Join) (u : Words) :
    recipients (.commit c) = c.forStations ∧ recipients (.request f s) = s ∧ recipients (.join j) = [] ∧ recipients (.leave u) = [] :=
  ⟨rfl, rfl, rfl, rfl⟩

/-- The part that holds for "not to ourselves": if the stations discovery reported were filtered against our own sockets,
nothing is ever sent to one of our sockets. -/
theorem C23_not_self_partial (own : List (List Char)) (es : List Event) (filter : List Words)
    (hes : ∀ e ∈ es, ∀ st ∈ e.found, ∃ answers, ∃ a ∈ filterQueries own answers, ∃ n u, st = station a n u ∧
      (∀ ip ∈ a.ipV4, keep1023 ip = ip))
    (t : List Char × Nat) (ht : t ∈ targets (Service.start.run es).group filter) : t.1 ++ ':' :: natText t.2 ∉ own := by
  unfold targets at ht
  simp only [List.mem_flatMap, List.mem_filter, List.mem_map] at ht
  obtain ⟨m, ⟨hm, -⟩, ip, hip, rfl⟩ := ht
  obtain ⟨e, he, st, hst, rfl⟩ := C22_members_discovered es m hm
  obtain ⟨answers, a, ha, n, u, rfl, hk⟩ := hes e he st hst
  have hw := (C45_filter own answers).2.2.1 a ha
  simp only [station, List.mem_map] at hip
  obtain ⟨x, hx, rfl⟩ := hip
  simp only [station]
  rw [hk x hx]
  exact hw.2.2 x hx

/-- What is stored in the 1024-byte fields of a discovered station always leaves room for the final 0, is the beginning
of the announced text, and is the whole text up to its first 0 if that has at most 1023 bytes. -/
theorem C50_fields_fit (s : List Char) :
    (keep1023 s).length < 1024 ∧ '\x00' ∉ keep1023 s ∧ (∃ rest, s = keep1023 s ++ rest) ∧
    ('\x00' ∉ s → s.length ≤ 1023 → keep1023 s = s) ∧ ('\x00' ∉ s → 1023 ≤ s.length → (keep1023 s).length = 1023) := by
  have hsub : ∀ x ∈ s.takeWhile (· ≠ '\x00'), x ≠ '\x00' := fun x hx => by
    simpa using List.all_eq_true.1 (List.all_takeWhile (l := s) (p := (· ≠ '\x00'))) x hx
  have hall : '\x00' ∉ s → s.takeWhile (· ≠ '\x00') = s := by
    intro h
    have := List.takeWhile_append_of_pos (p := (· ≠ '\x00')) (l₁ := s) (l₂ := []) (fun x hx => by
      simp only [ne_eq, decide_not, Bool.not_eq_true', decide_eq_false_iff_not]
      rintro rfl; exact h hx)
    simpa using this
  unfold keep1023
  refine ⟨by rw [List.length_take]; omega, fun h => hsub _ (List.mem_of_mem_take h) rfl, ?_, ?_, ?_⟩
  · refine ⟨(s.takeWhile (· ≠ '\x00')).drop 1023 ++ s.dropWhile (· ≠ '\x00'), ?_⟩
    rw [← List.append_assoc, List.take_append_drop, List.takeWhile_append_dropWhile]
  · intro h hl; rw [hall h, List.take_of_length_le hl]
  · intro h hl; rw [hall h, List.length_take]; omega

end Verif.Xchg
