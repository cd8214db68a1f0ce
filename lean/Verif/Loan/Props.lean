import Verif.Loan.Spec
import Verif.Xchg.JsonProps

/-!
# C98: a file that is asked for arrives, and the memory that carries it is released once
-/

namespace Verif.Loan

open Verif.Xchg

theorem put_back (f : Ptr → Option (List Byte)) (p : Ptr) (v : Option (List Byte)) (h : f p = none) :
    put (put f p v) p none = f := by
  funext q
  unfold put
  split
  · next e => rw [e, h]
  · rfl

theorem alloc_delete (h : Heap) (ho : h.Ok) (b : List Byte) :
    (h.alloc b).1.delete (some (h.alloc b).2) = .ok { live := h.live, next := h.next + 1 } := by
  have e : put (put h.live h.next (some b)) h.next none = h.live := put_back _ _ _ (ho _ (Nat.le_refl _))
  simp only [Heap.delete, Heap.alloc]
  rw [show put h.live h.next (some b) h.next = some b by simp [put]]
  simp only [e]

theorem alloc_ok (h : Heap) (ho : h.Ok) (b : List Byte) : (h.alloc b).1.Ok := by
  intro p hp
  have hp : h.next + 1 ≤ p := hp
  show put h.live h.next (some b) p = none
  unfold put
  rw [if_neg (Nat.ne_of_gt hp)]
  exact ho p (Nat.le_of_succ_le hp)

theorem alloc_read (h : Heap) (b : List Byte) (n : Nat) (hn : n ≤ b.length) :
    (h.alloc b).1.read (h.alloc b).2 n = .ok (b.take n) := by
  simp [Heap.read, Heap.alloc, put, hn]

/-- Without a buffer nothing happens to the memory, and the only errors are those of the text. -/
theorem from_none (d : Disk) (h : Heap) (a : ExtMsg) (hb : a.buffer = none) :
    (∃ r, fromExternalMessage d h a = .ok (h, r)) ∨ (∃ t, fromExternalMessage d h a = .error (.trouble t)) := by
  unfold fromExternalMessage
  rw [hb]
  split
  · exact .inl ⟨_, rfl⟩
  · cases fromExternal a.msg with
    | ok r => exact .inl ⟨r, rfl⟩
    | error t => exact .inr ⟨t, rfl⟩

theorem from_carries (d : Disk) (h : Heap) (a : ExtMsg) (hc : a.Carries) :
    fromExternalMessage d h a = match a.buffer with
      | some p => (h.read p a.length >>= fun b => h.delete (some p) >>= fun h => .ok (h, (1, b)))
      | none => .ok (h, (1, readPath d a.path)) := by
  obtain ⟨e, f, hm⟩ := hc
  unfold fromExternalMessage
  rw [hm]
  cases a.buffer <;> rfl

/-- A heap that has the blocks of another one, and new addresses. -/
def Same (h h' : Heap) : Prop := h'.live = h.live ∧ h.next ≤ h'.next

theorem Same.ok {h h' : Heap} (s : Same h h') (ho : h.Ok) : h'.Ok := by
  intro p hp
  rw [s.1]
  exact ho p (Nat.le_trans s.2 hp)

theorem Same.trans {a b c : Heap} (s : Same a b) (t : Same b c) : Same a c := ⟨t.1.trans s.1, Nat.le_trans s.2 t.2⟩

/-- What reading a packet does to the memory. -/
theorem to_cases (h : Heap) (type : Nat) (body : List Byte) :
    (∃ g, toExternal type body = some (.ok g) ∧ type = 1 ∧ body ≠ [] ∧
      toExternalMessage h type body = .ok ((h.alloc body).1, (g, some (h.alloc body).2))) ∨
    (∃ g, toExternal type body = some (.ok g) ∧ ¬ (type = 1 ∧ body ≠ []) ∧ toExternalMessage h type body = .ok (h, (g, none))) ∨
    (∃ e, toExternalMessage h type body = .error e ∧ ¬ e.Memory ∧ ∀ g, toExternal type body ≠ some (.ok g)) := by
  unfold toExternalMessage
  cases ht : toExternal type body with
  | none => exact .inr (.inr ⟨_, rfl, fun h => h, by simp⟩)
  | some r =>
    cases r with
    | error t => exact .inr (.inr ⟨_, rfl, fun h => h, by simp⟩)
    | ok g =>
      by_cases hc : type = 1 ∧ body ≠ []
      · exact .inl ⟨g, rfl, hc.1, hc.2, by simp only [if_pos hc]⟩
      · exact .inr (.inl ⟨g, rfl, hc, by simp only [if_neg hc]⟩)

theorem not_carries (d : Disk) (h : Heap) (a : ExtMsg) (hc : ¬ a.Carries) :
    fromExternalMessage d h a = match fromExternal a.msg with
      | .ok r => .ok (h, r)
      | .error t => .error (.trouble t) := by
  unfold fromExternalMessage
  split
  · next e f hm => exact absurd ⟨e, f, hm⟩ hc
  · rfl

/-- The packet for an answer without a buffer. -/
theorem from_none_reply (d : Disk) (h h0 : Heap) (a : ExtMsg) (hb : a.buffer = none) :
    (∃ r, fromExternalMessage d h a = .ok (h, r) ∧ Reply d h0 a r) ∨
    (∃ t, fromExternalMessage d h a = .error (.trouble t)) := by
  by_cases hc : a.Carries
  · rw [from_carries d h a hc, hb]
    exact .inl ⟨_, rfl, .inr (.inl ⟨hc, hb, rfl⟩)⟩
  · rw [not_carries d h a hc]
    cases hf : fromExternal a.msg with
    | ok r => exact .inl ⟨r, rfl, .inr (.inr ⟨hc, hf⟩)⟩
    | error t => exact .inr ⟨t, rfl⟩

theorem serve_cases (d : Disk) (app : App) (hcar : Careful app) (h : Heap) (ho : h.Ok) (type : Nat) (body : List Byte) :
    (∃ h1 p h' g r, toExternalMessage h type body = .ok (h1, (g, p)) ∧ serveOne d app h type body = .ok (h', (g, r)) ∧ Same h h' ∧
      Reply d (app h1 g p).1 (app h1 g p).2 r) ∨
    (∃ e, serveOne d app h type body = .error e ∧ ¬ e.Memory) := by
  rcases to_cases h type body with ⟨g, _, _, _, ht⟩ | ⟨g, _, _, ht⟩ | ⟨e, ht, hm, _⟩
  · -- a file came in
    have ho1 := alloc_ok h ho body
    have hg := hcar (h.alloc body).1 g (some (h.alloc body).2) ho1
    unfold serveOne
    rw [ht]
    simp only [bind, Except.bind]
    generalize hA : app (h.alloc body).1 g (some (h.alloc body).2) = A at hg
    obtain ⟨h2, a⟩ := A
    rcases hg with ⟨hb, hl, hn⟩ | ⟨b, hc, hh, hb, hlen⟩
    · have e2 : h2 = (h.alloc body).1 := by cases h2; cases hl; cases hn; rfl
      subst e2
      rw [alloc_delete h ho body]
      rcases from_none_reply d { live := h.live, next := h.next + 1 } (h.alloc body).1 a hb with ⟨r, hr, hR⟩ | ⟨t, hr⟩
      · refine .inl ⟨_, _, { live := h.live, next := h.next + 1 }, g, r, rfl, ?_, ⟨rfl, Nat.le_succ _⟩, ?_⟩
        · simp only [hr]
        · rw [hA]; exact hR
      · refine .inr ⟨.trouble t, ?_, fun h => h⟩
        simp only [hr]
    · have hh : h2 = ((h.alloc body).1.alloc b).1 := hh
      have hb : a.buffer = some (h.next + 1) := hb
      have hd : h2.delete (some (h.alloc body).2) = .ok { live := put h.live (h.next + 1) (some b), next := h.next + 2 } := by
        have e : put (put (put h.live h.next (some body)) (h.next + 1) (some b)) h.next none = put h.live (h.next + 1) (some b) := by
          funext q
          simp only [put]
          by_cases e1 : q = h.next
          · subst e1
            rw [if_pos rfl, if_neg (Nat.ne_of_lt (Nat.lt_succ_self _)), ho _ (Nat.le_refl _)]
          · by_cases e2 : q = h.next + 1
            · simp [e2]
            · simp [e1, e2]
        rw [hh]
        simp only [Heap.delete, Heap.alloc]
        rw [show put (put h.live h.next (some body)) (h.next + 1) (some b) h.next = some body by
          unfold put; rw [if_neg (Nat.ne_of_lt (Nat.lt_succ_self _)), if_pos rfl]]
        simp only [e]
      rw [hd]
      have hf : fromExternalMessage d { live := put h.live (h.next + 1) (some b), next := h.next + 2 } a =
          .ok ({ live := h.live, next := h.next + 2 }, (1, b.take a.length)) := by
        rw [from_carries d _ a hc, hb]
        have e : put (put h.live (h.next + 1) (some b)) (h.next + 1) none = h.live := put_back _ _ _ (ho _ (Nat.le_succ _))
        have hp : put h.live (h.next + 1) (some b) (h.next + 1) = some b := by simp [put]
        simp only [Heap.read, Heap.delete, hp, e, bind, Except.bind, if_pos hlen]
      refine .inl ⟨_, _, { live := h.live, next := h.next + 2 }, g, (1, b.take a.length), rfl, ?_, ⟨rfl, Nat.le_add_right _ 2⟩, ?_⟩
      · simp only [hf]
      · rw [hA]
        refine .inl ⟨h.next + 1, b, hc, hb, ?_, rfl⟩
        rw [hh]
        simp [Heap.alloc, put]
  · have hg := hcar h g none ho
    unfold serveOne
    rw [ht]
    simp only [bind, Except.bind]
    generalize hA : app h g none = A at hg
    obtain ⟨h2, a⟩ := A
    rcases hg with ⟨hb, hl, hn⟩ | ⟨b, hc, hh, hb, hlen⟩
    · have e2 : h2 = h := by cases h2; cases hl; cases hn; rfl
      subst e2
      simp only [Heap.delete]
      rcases from_none_reply d h2 h2 a hb with ⟨r, hr, hR⟩ | ⟨t, hr⟩
      · refine .inl ⟨_, _, _, g, r, rfl, ?_, ⟨rfl, Nat.le_refl _⟩, ?_⟩
        · simp only [hr]
        · rw [hA]; exact hR
      · refine .inr ⟨.trouble t, ?_, fun h => h⟩
        simp only [hr]
    · have hh : h2 = (h.alloc b).1 := hh
      subst hh
      simp only [Heap.delete]
      have hf : fromExternalMessage d (h.alloc b).1 a = .ok ({ live := h.live, next := h.next + 1 }, (1, b.take a.length)) := by
        rw [from_carries d _ a hc, hb]
        have hr := alloc_read h b a.length hlen
        have hd := alloc_delete h ho b
        simp only [hr, hd, bind, Except.bind]
      refine .inl ⟨_, _, { live := h.live, next := h.next + 1 }, g, (1, b.take a.length), rfl, ?_, ⟨rfl, Nat.le_succ _⟩, ?_⟩
      · simp only [hf]
      · rw [hA]
        refine .inl ⟨_, b, hc, hb, ?_, rfl⟩
        simp [Heap.alloc, put]
  · refine .inr ⟨e, ?_, hm⟩
    unfold serveOne
    rw [ht]
    rfl

/-! ## The side that is asked -/

/-- **C98**, one packet: with an application that gives a new buffer with every file, the memory after the answer is the memory
before, nothing is released twice or used after its release, and the answer that is sent is the one the application gave. -/
theorem C98_answer_partial (d : Disk) (app : App) (hcar : Careful app) (h : Heap) (ho : h.Ok) (type : Nat) (body : List Byte) :
    (∀ e, serveOne d app h type body = .error e → ¬ e.Memory) ∧
    (∀ h' g r, serveOne d app h type body = .ok (h', (g, r)) → h'.live = h.live ∧ toExternal type body = some (.ok g) ∧
      ∃ h1 p, toExternalMessage h type body = .ok (h1, (g, p)) ∧ Reply d (app h1 g p).1 (app h1 g p).2 r) := by
  rcases serve_cases d app hcar h ho type body with ⟨h1, p, h', g, r, ht, hs, hsame, hR⟩ | ⟨e, hs, hm⟩
  · refine ⟨fun e he => (by rw [hs] at he; cases he), ?_⟩
    intro h'' g' r' he
    rw [hs] at he
    cases he
    refine ⟨hsame.1, ?_, h1, p, ht, hR⟩
    rcases to_cases h type body with ⟨g', hg, _, _, ht'⟩ | ⟨g', hg, _, ht'⟩ | ⟨e, ht', _, _⟩
    · rw [ht] at ht'; cases ht'; exact hg
    · rw [ht] at ht'; cases ht'; exact hg
    · rw [ht] at ht'; cases ht'
  · exact ⟨fun e' he => (by rw [hs] at he; cases he; exact hm), fun h' g r he => (by rw [hs] at he; cases he)⟩

theorem serveAll_cases : ∀ (rs : List Request), (∀ r ∈ rs, Careful r.app) → ∀ h : Heap, h.Ok →
    (∃ h' out, serveAll h rs = .ok (h', out) ∧ Same h h' ∧ out.length = rs.length) ∨ (∃ e, serveAll h rs = .error e ∧ ¬ e.Memory)
  | [], _, h, _ => .inl ⟨h, [], rfl, ⟨rfl, Nat.le_refl _⟩, rfl⟩
  | r :: rs, hc, h, ho => by
    unfold serveAll
    rcases serve_cases r.disk r.app (hc r (by simp)) h ho r.type r.body with ⟨_, _, h1, g, w, _, hs, hsame, _⟩ | ⟨e, hs, hm⟩
    · rw [hs]
      simp only [bind, Except.bind]
      rcases serveAll_cases rs (fun x hx => hc x (by simp [hx])) h1 (hsame.ok ho) with ⟨h2, out, h3, s2, hl⟩ | ⟨e, h3, hm⟩
      · rw [h3]
        exact .inl ⟨h2, _, rfl, hsame.trans s2, by simp [hl]⟩
      · rw [h3]
        exact .inr ⟨e, rfl, hm⟩
    · rw [hs]
      exact .inr ⟨e, rfl, hm⟩

/-- **C98**, histories: however many packets of whatever content arrive, with such applications nothing is released twice, nothing
is used after its release, and no memory is left over. -/
theorem C98_history_partial (rs : List Request) (hc : ∀ r ∈ rs, Careful r.app) (h : Heap) (ho : h.Ok) :
    (∀ e, serveAll h rs = .error e → ¬ e.Memory) ∧
    (∀ h' out, serveAll h rs = .ok (h', out) → h'.live = h.live ∧ out.length = rs.length) := by
  rcases serveAll_cases rs hc h ho with ⟨h', out, hs, hsame, hl⟩ | ⟨e, hs, hm⟩
  · exact ⟨fun e he => (by rw [hs] at he; cases he), fun _ _ he => (by rw [hs] at he; cases he; exact ⟨hsame.1, hl⟩)⟩
  · exact ⟨fun e' he => (by rw [hs] at he; cases he; exact hm), fun _ _ he => (by rw [hs] at he; cases he)⟩

/-! ## The side that asks -/

/-- Answers that can be understood, and what the application should see of them: the message, and the bytes of a file. -/
theorem returned_all : ∀ (answers : List (Nat × List Byte)) (h : Heap), h.Ok →
    (∀ a ∈ answers, ∃ g, toExternal a.1 a.2 = some (.ok g)) →
    ∃ h' seen, returned h answers = .ok (h', seen) ∧ Same h h' ∧
      seen.map (fun s => (some (Except.ok s.1), s.2)) =
        answers.map (fun a => (toExternal a.1 a.2, if a.1 = 1 ∧ a.2 ≠ [] then some a.2 else none))
  | [], h, _, _ => ⟨h, [], rfl, ⟨rfl, Nat.le_refl _⟩, rfl⟩
  | (type, body) :: rest, h, ho, hu => by
    obtain ⟨g0, hg0⟩ := hu (type, body) (by simp)
    have hg0 : toExternal type body = some (.ok g0) := hg0
    unfold returned
    rcases to_cases h type body with ⟨g, hg, h1, hb, ht⟩ | ⟨g, hg, hn, ht⟩ | ⟨e, _, _, hno⟩
    · rw [ht]
      simp only [bind, Except.bind, alloc_delete h ho body]
      have s1 : Same h { live := h.live, next := h.next + 1 } := ⟨rfl, Nat.le_succ _⟩
      obtain ⟨h', seen, hr, hs, hm⟩ := returned_all rest _ (s1.ok ho) (fun a ha => hu a (by simp [ha]))
      rw [hr]
      refine ⟨h', _, rfl, s1.trans hs, ?_⟩
      rw [List.map_cons, List.map_cons, hm, hg]
      simp [h1, hb, Heap.alloc, put]
    · rw [ht]
      simp only [bind, Except.bind, Heap.delete]
      obtain ⟨h', seen, hr, hs, hm⟩ := returned_all rest h ho (fun a ha => hu a (by simp [ha]))
      rw [hr]
      refine ⟨h', _, rfl, hs, ?_⟩
      rw [List.map_cons, List.map_cons, hm, hg, if_neg hn]
      rfl
    · exact absurd hg0 (hno g0)

/-- **C98**, asking: a message without a buffer is sent, every answer that comes back is shown to the application with the bytes of
its file, and no memory is left over. -/
theorem C98_ask_partial (d : Disk) (h : Heap) (ho : h.Ok) (m : ExtMsg) (hb : m.buffer = none) (packet : Nat × List Byte)
    (hp : Reply d h m packet) (answers : List (Nat × List Byte)) (hu : ∀ a ∈ answers, ∃ g, toExternal a.1 a.2 = some (.ok g)) :
    ∃ h' seen, sendMessage d h m answers = .ok (h', (packet, seen)) ∧ h'.live = h.live ∧
      seen.map (fun s => (some (Except.ok s.1), s.2)) =
        answers.map (fun a => (toExternal a.1 a.2, if a.1 = 1 ∧ a.2 ≠ [] then some a.2 else none)) := by
  have hf : fromExternalMessage d h m = .ok (h, packet) := by
    rcases hp with ⟨p, b, _, hp, _⟩ | ⟨hc, _, hr⟩ | ⟨hc, hr⟩
    · rw [hb] at hp; cases hp
    · rw [from_carries d h m hc, hb, hr]
    · rw [not_carries d h m hc, hr]
  obtain ⟨h', seen, hr, hs, hm⟩ := returned_all answers h ho hu
  refine ⟨h', seen, ?_, hs.1, hm⟩
  unfold sendMessage
  simp only [hf, hr, hb, Heap.delete, bind, Except.bind]

/-! ## From one station to the other -/

/-- **C98**, the transfer: a station asks for a file; the application of the other one answers with a buffer, or with the path of a
file on its disk that can be read.  If the file is not empty, the application that asked is given an answer that is "OK", with the
bytes of the file; the memory of both is as before. -/
theorem C98_transfer_partial (d d' : Disk) (app : App) (hcar : Careful app) (hA hB : Heap) (hoA : hA.Ok) (hoB : hB.Ok) (m : ExtMsg)
    (hb : m.buffer = none) (q : Nat × List Byte) (hq : Reply d hA m q) (hBs : Heap) (g : Got) (hto : toExternalMessage hB q.1 q.2 = .ok (hBs, (g, none)))
    (file : List Byte) (hne : file ≠ [])
    (hfile : (app hBs g none).2.Carries ∧
      ((∃ p b, (app hBs g none).2.buffer = some p ∧ (app hBs g none).1.live p = some b ∧ file = b.take (app hBs g none).2.length) ∨
       ((app hBs g none).2.buffer = none ∧ ∃ f, d' (app hBs g none).2.path = some f ∧ f.content = file ∧ file.length ≤ f.readable))) :
    ∃ hB' hA', serveOne d' app hB q.1 q.2 = .ok (hB', (g, (1, file))) ∧ hB'.live = hB.live ∧
      sendMessage d hA m [(1, file)] = .ok (hA', (q, [(.message (.requestRet true [] file), some file)])) ∧ hA'.live = hA.live := by
  obtain ⟨hc, hwhat⟩ := hfile
  have hun : toExternal 1 file = some (.ok (.message (.requestRet true [] file))) := by
    unfold toExternal
    rw [if_neg (by simp), if_pos rfl]
    cases file with
    | nil => exact absurd rfl hne
    | cons x xs => rfl
  obtain ⟨hA', seen, hs, hl, hm⟩ := C98_ask_partial d hA hoA m hb q hq [(1, file)] (by
    intro a ha
    rw [List.mem_singleton.1 ha]
    exact ⟨_, hun⟩)
  have hseen : seen = [(.message (.requestRet true [] file), some file)] := by
    simp only [List.map_cons, List.map_nil, hun, hne, ne_eq, not_false_eq_true, and_self, if_true] at hm
    match seen, hm with
    | [(g, s)], hm => simp at hm; simp [hm.1, hm.2]
  rcases serve_cases d' app hcar hB hoB q.1 q.2 with ⟨h1, p, hB', g', r, ht, hsv, hsame, hR⟩ | ⟨e, hsv, hmem⟩
  · rw [hto] at ht
    cases ht
    refine ⟨hB', hA', ?_, hsame.1, hseen ▸ hs, hl⟩
    have hr : r = (1, file) := by
      rcases hR with ⟨p, b, _, hp, hb', hr⟩ | ⟨_, hnb, hr⟩ | ⟨hnc, _⟩
      · rcases hwhat with ⟨p', b', hp', hb'', hf⟩ | ⟨hn, _⟩
        · rw [hp] at hp'
          cases hp'
          rw [hb'] at hb''
          cases hb''
          rw [hr, hf]
        · rw [hp] at hn; cases hn
      · rcases hwhat with ⟨p', b', hp', _, _⟩ | ⟨_, f, hf, hcont, hlen⟩
        · rw [hnb] at hp'; cases hp'
        · rw [hr]
          unfold readPath
          rw [hf]
          show (1, f.content.take f.readable) = _
          rw [hcont, List.take_of_length_le hlen]
      · exact absurd hc hnc
    rw [hsv, hr]
  · -- the answer is a file, so there is no text that could throw
    exfalso
    revert hsv
    unfold serveOne
    rw [hto]
    simp only [bind, Except.bind, Heap.delete]
    rw [from_carries d' _ _ hc]
    rcases hwhat with ⟨p, b, hp, hlive, hf⟩ | ⟨hn, _⟩
    · have hg := hcar hBs g none (by
        rcases to_cases hB q.1 q.2 with ⟨_, _, _, _, h⟩ | ⟨_, _, _, h⟩ | ⟨_, h, _, _⟩
        · rw [hto] at h; cases h
        · rw [hto] at h; cases h; exact hoB
        · rw [hto] at h; cases h)
      rcases hg with ⟨hnone, _⟩ | ⟨b', _, hh, hbuf, hlen⟩
      · rw [hp] at hnone; cases hnone
      · rw [hp] at hbuf
        cases hbuf
        have hbb : b = b' := by
          rw [hh] at hlive
          simp [Heap.alloc, put] at hlive
          exact hlive.symm
        subst hbb
        simp only [hp, Heap.read, Heap.delete, hlive, if_pos hlen]
        intro h; cases h
    · rw [hn]
      intro h; cases h

/-- **C98**, a request: a station sends `MVR_REQUEST` for any file; the other application sees this request and nothing else, and
the file it gives (as above) is what the application that asked is shown. -/
theorem C98_request_partial (d d' : Disk) (app : App) (hcar : Careful app) (hA hB : Heap) (hoA : hA.Ok) (hoB : hB.Ok)
    (uuid : Words) (stations : List Words) (path : List Byte) (n : Nat) (file : List Byte) (hne : file ≠ [])
    (hfile : let o := app hB (.message (.request uuid stations)) none
      o.2.Carries ∧ ((∃ p b, o.2.buffer = some p ∧ o.1.live p = some b ∧ file = b.take o.2.length) ∨
        (o.2.buffer = none ∧ ∃ f, d' o.2.path = some f ∧ f.content = file ∧ file.length ≤ f.readable))) :
    ∃ q hB' hA', serveOne d' app hB q.1 q.2 = .ok (hB', (.message (.request uuid stations), (1, file))) ∧ hB'.live = hB.live ∧
      sendMessage d hA ⟨.request uuid stations, path, none, n⟩ [(1, file)] =
        .ok (hA', (q, [(.message (.requestRet true [] file), some file)])) ∧ hA'.live = hA.live := by
  obtain ⟨type, body, hf, ht⟩ := C82_message_partial (.request uuid stations) trivial trivial trivial nofun
  have ht : toExternal type body = some (.ok (.message (.request uuid stations))) := ht
  have h1 : type ≠ 1 := by
    rintro rfl
    unfold toExternal at ht
    rw [if_neg (by simp), if_pos rfl] at ht
    cases body with
    | nil => cases ht
    | cons x xs => cases ht
  have hto : toExternalMessage hB type body = .ok (hB, (.message (.request uuid stations), none)) := by
    unfold toExternalMessage
    simp only [ht]
    rw [if_neg (fun h => h1 h.1)]
  obtain ⟨hB', hA', r1, r2, r3, r4⟩ := C98_transfer_partial d d' app hcar hA hB hoA hoB ⟨.request uuid stations, path, none, n⟩ rfl
    (type, body) (.inr (.inr ⟨(by rintro ⟨e, f, hm⟩; cases hm), hf⟩)) hB _ hto file hne hfile
  exact ⟨(type, body), hB', hA', r1, r2, r3, r4⟩

/-- The buffer is used when both a buffer and a path are given, whatever is on the disk. -/
theorem C98_buffer_first (d d' : Disk) (h : Heap) (m : ExtMsg) (p : Ptr) (hc : m.Carries) (hp : m.buffer = some p) :
    fromExternalMessage d h m = fromExternalMessage d' h m := by
  rw [from_carries d h m hc, from_carries d' h m hc, hp]

/-! ## What does not hold -/

/-- **Violation.** An answer with a file in a buffer that is sent with `Send_message`: the buffer is released when the packet is made
and once more at the end, whatever the memory is and the answers are. -/
theorem C98_send_violated (d : Disk) (h : Heap) (ho : h.Ok) (b : List Byte) (err : List Char) (f : List Byte) (path : List Byte)
    (answers : List (Nat × List Byte)) (hu : ∀ a ∈ answers, ∃ g, toExternal a.1 a.2 = some (.ok g)) :
    sendMessage d (h.alloc b).1 ⟨.requestRet true err f, path, some (h.alloc b).2, b.length⟩ answers = .error .freed := by
  have s1 : Same h { live := h.live, next := h.next + 1 } := ⟨rfl, Nat.le_succ _⟩
  obtain ⟨h', seen, hr, hs, _⟩ := returned_all answers _ (s1.ok ho) hu
  have hf : fromExternalMessage d (h.alloc b).1 ⟨.requestRet true err f, path, some (h.alloc b).2, b.length⟩ =
      .ok ({ live := h.live, next := h.next + 1 }, (1, b)) := by
    rw [from_carries d _ _ ⟨err, f, rfl⟩]
    simp only [alloc_read h b b.length (Nat.le_refl _), alloc_delete h ho b, bind, Except.bind, List.take_length]
  have hnone : h'.live (h.alloc b).2 = none := by
    rw [hs.1]
    exact ho _ (Nat.le_refl _)
  unfold sendMessage
  simp only [hf, hr, bind, Except.bind]
  rw [Heap.delete]
  simp only [hnone]

/-- **Violation.** An application that loads a file once and gives the same buffer to all who ask: the second answer reads memory
that has been released. -/
theorem C98_keep_violated (h : Heap) (ho : h.Ok) (b : List Byte) (d : Disk) (g : Got) (type : Nat) (body : List Byte)
    (hto : toExternal type body = some (.ok g)) (hn : ¬ (type = 1 ∧ body ≠ [])) :
    let app : App := fun x _ _ => (x, ⟨.requestRet true [] [], [], some (h.alloc b).2, b.length⟩)
    let r : Request := ⟨type, body, d, app⟩
    (∃ h', serveAll (h.alloc b).1 [r] = .ok (h', [(g, (1, b))])) ∧ serveAll (h.alloc b).1 [r, r] = .error .stale := by
  intro app r
  have hto' : ∀ x : Heap, toExternalMessage x type body = .ok (x, (g, none)) := by
    intro x
    unfold toExternalMessage
    simp only [hto, if_neg hn]
  have h1 : serveOne d app (h.alloc b).1 type body = .ok ({ live := h.live, next := h.next + 1 }, (g, (1, b))) := by
    unfold serveOne
    rw [hto']
    simp only [bind, Except.bind, Heap.delete.eq_1, app]
    rw [from_carries d _ _ ⟨[], [], rfl⟩]
    simp only [alloc_read h b b.length (Nat.le_refl _), alloc_delete h ho b, bind, Except.bind, List.take_length]
  have h2 : serveOne d app { live := h.live, next := h.next + 1 } type body = .error .stale := by
    unfold serveOne
    rw [hto']
    simp only [bind, Except.bind, Heap.delete.eq_1, app]
    rw [from_carries d _ _ ⟨[], [], rfl⟩]
    have : h.live (h.alloc b).2 = none := ho _ (Nat.le_refl _)
    simp only [Heap.read, this, bind, Except.bind]
  constructor
  · exact ⟨{ live := h.live, next := h.next + 1 }, by simp only [serveAll, r, h1, bind, Except.bind]⟩
  · simp only [serveAll, r, h1, h2, bind, Except.bind]

/-- **Violation.** An application that sends back the buffer it was given: it has been released before the answer is made. -/
theorem C98_echo_violated (d : Disk) (h : Heap) (ho : h.Ok) (body : List Byte) (hne : body ≠ []) :
    serveOne d (fun x _ p => (x, ⟨.requestRet true [] [], [], p, body.length⟩)) h 1 body = .error .stale := by
  rcases to_cases h 1 body with ⟨g, _, _, _, ht⟩ | ⟨g, _, hn, _⟩ | ⟨e, _, _, hno⟩
  · unfold serveOne
    rw [ht]
    simp only [bind, Except.bind, alloc_delete h ho body]
    rw [from_carries d _ _ ⟨[], [], rfl⟩]
    have : h.live (h.alloc body).2 = none := ho _ (Nat.le_refl _)
    simp only [Heap.read, this, bind, Except.bind]
  · exact absurd ⟨rfl, hne⟩ hn
  · exfalso
    cases body with
    | nil => exact hne rfl
    | cons x xs => exact hno _ rfl

/-- **Violation.** A buffer with an answer that does not carry a file, here with `RetIsOK` false, is never released: after `n` such
answers there are `n` blocks that nobody knows of. -/
theorem C98_refusal_violated (b : List Byte) (err : List Char) (d : Disk) (g : Got) (type : Nat) (body : List Byte)
    (hto : toExternal type body = some (.ok g)) (hn : ¬ (type = 1 ∧ body ≠ [])) (w : Nat × List Byte)
    (hw : fromExternal (.requestRet false err []) = .ok w) :
    let app : App := fun x _ _ => ((x.alloc b).1, ⟨.requestRet false err [], [], some (x.alloc b).2, b.length⟩)
    ∀ (n : Nat) (h : Heap), ∃ h', serveAll h (List.replicate n ⟨type, body, d, app⟩) = .ok (h', List.replicate n (g, w)) ∧
      (∀ p, p < h.next → h'.live p = h.live p) ∧ ∀ k, k < n → h'.live (h.next + k) = some b := by
  intro app
  have hone : ∀ h : Heap, serveOne d app h type body = .ok ((h.alloc b).1, (g, w)) := by
    intro h
    have hto' : toExternalMessage h type body = .ok (h, (g, none)) := by
      unfold toExternalMessage
      simp only [hto, if_neg hn]
    unfold serveOne
    rw [hto']
    simp only [bind, Except.bind, Heap.delete.eq_1, app]
    rw [not_carries d _ _ (by rintro ⟨e, f, hm⟩; cases hm)]
    simp only [hw]
  intro n
  induction n with
  | zero => exact fun h => ⟨h, rfl, fun _ _ => rfl, fun k hk => absurd hk (Nat.not_lt_zero k)⟩
  | succ n ih =>
    intro h
    obtain ⟨h', hs, hold, hnew⟩ := ih (h.alloc b).1
    refine ⟨h', ?_, ?_, ?_⟩
    · rw [List.replicate_succ, List.replicate_succ]
      simp only [serveAll, hone, hs, bind, Except.bind]
    · intro p hp
      rw [hold p (Nat.lt_succ_of_lt hp)]
      show put h.live h.next (some b) p = _
      unfold put
      rw [if_neg (Nat.ne_of_lt hp)]
    · intro k hk
      cases k with
      | zero =>
        show h'.live h.next = _
        rw [hold h.next (Nat.lt_succ_self _)]
        simp [Heap.alloc, put]
      | succ k =>
        have := hnew k (Nat.lt_of_succ_lt_succ hk)
        rw [show (h.alloc b).1.next + k = h.next + (k + 1) from Nat.succ_add_eq_add_succ h.next k] at this
        exact this

/-- **Violation.** A file of which only a part can be read is sent as a complete file: the packet is the one for a file that has just
this part. -/
theorem C98_short_violated (d d' : Disk) (h : Heap) (m : ExtMsg) (hc : m.Carries) (hb : m.buffer = none) (c : List Byte) (n : Nat)
    (hd : d m.path = some ⟨c, n⟩) (hd' : d' m.path = some ⟨c.take n, (c.take n).length⟩) :
    fromExternalMessage d h m = fromExternalMessage d' h m := by
  rw [from_carries d h m hc, from_carries d' h m hc, hb]
  simp only [readPath, hd, hd', List.take_length]

/-- **Violation.** A path that leads nowhere is not noticed by the station that answers; the station that asks gets a packet that it
does not understand. -/
theorem C98_missing_violated (d : Disk) (h : Heap) (m : ExtMsg) (hc : m.Carries) (hb : m.buffer = none) (hd : d m.path = none) :
    fromExternalMessage d h m = .ok (h, (1, [])) ∧ toExternal 1 [] = some (.ok .refused) := by
  rw [from_carries d h m hc, hb]
  simp only [readPath, hd]
  exact ⟨trivial, rfl⟩

/-! ## The hypotheses can be met -/

/-- An application that answers a request with a new copy of three bytes, and everything else with a refusal. -/
def copies : App := fun h g _ => match g with
  | .message (.request _ _) => ((h.alloc [1, 2, 3]).1, ⟨.requestRet true [] [], [], some (h.alloc [1, 2, 3]).2, 3⟩)
  | _ => (h, ⟨.requestRet false "no".toList [], [], none, 0⟩)

theorem copies_careful : Careful copies := by
  intro h g p _
  unfold copies
  split
  · exact .inr ⟨[1, 2, 3], ⟨_, _, rfl⟩, rfl, rfl, Nat.le_refl _⟩
  · exact .inl ⟨rfl, rfl, rfl⟩

def emptyHeap : Heap := ⟨fun _ => none, 0⟩

example : emptyHeap.Ok ∧ (emptyHeap.alloc [7]).1.Ok := ⟨fun _ _ => rfl, alloc_ok _ (fun _ _ => rfl) _⟩

/-- A request and its answer, from a buffer. -/
example : ∃ q hB' hA', serveOne (fun _ => none) copies emptyHeap q.1 q.2 = .ok (hB', (.message (.request (1, 2, 3, 4) []), (1, [1, 2, 3]))) ∧
      hB'.live = emptyHeap.live ∧
      sendMessage (fun _ => none) emptyHeap ⟨.request (1, 2, 3, 4) [], [], none, 0⟩ [(1, [1, 2, 3])] =
        .ok (hA', (q, [(.message (.requestRet true [] [1, 2, 3]), some [1, 2, 3])])) ∧ hA'.live = emptyHeap.live :=
  C98_request_partial _ _ copies copies_careful emptyHeap emptyHeap (fun _ _ => rfl) (fun _ _ => rfl) (1, 2, 3, 4) [] [] 0 [1, 2, 3] (by simp)
    ⟨⟨_, _, rfl⟩, .inl ⟨_, [1, 2, 3], rfl, rfl, rfl⟩⟩

/-- The same from the disk. -/
example : ∃ q hB' hA', serveOne (fun p => if p = [47] then some ⟨[5, 6], 2⟩ else none) (fun h _ _ => (h, ⟨.requestRet true [] [], [47], none, 0⟩))
        emptyHeap q.1 q.2 = .ok (hB', (.message (.request (1, 2, 3, 4) []), (1, [5, 6]))) ∧ hB'.live = emptyHeap.live ∧
      sendMessage (fun _ => none) emptyHeap ⟨.request (1, 2, 3, 4) [], [], none, 0⟩ [(1, [5, 6])] =
        .ok (hA', (q, [(.message (.requestRet true [] [5, 6]), some [5, 6])])) ∧ hA'.live = emptyHeap.live :=
  C98_request_partial _ _ _ (fun _ _ _ _ => .inl ⟨rfl, rfl, rfl⟩) emptyHeap emptyHeap (fun _ _ => rfl) (fun _ _ => rfl) (1, 2, 3, 4) [] [] 0 [5, 6] (by simp)
    ⟨⟨_, _, rfl⟩, .inr ⟨rfl, ⟨[5, 6], 2⟩, rfl, rfl, Nat.le_refl _⟩⟩

/-- A packet that is understood and carries no file, and the text of a refusal. -/
example : toExternal 0 [] = some (.ok .refused) ∧ ¬ ((0 : Nat) = 1 ∧ ([] : List Byte) ≠ []) ∧
    ∃ w, fromExternal (.requestRet false "no".toList []) = .ok w := ⟨rfl, by simp, _, rfl⟩

/-- A history of three packets, the second with a file that nobody asked for. -/
example : ∀ r ∈ [(⟨0, [], fun _ => none, copies⟩ : Request), ⟨1, [9], fun _ => none, copies⟩, ⟨7, [1], fun _ => none, copies⟩],
    Careful r.app := by
  intro r hr
  simp only [List.mem_cons, List.not_mem_nil, or_false] at hr
  rcases hr with rfl | rfl | rfl <;> exact copies_careful

/-- A message with a path that leads nowhere. -/
example : (⟨.requestRet true [] [], [47], none, 0⟩ : ExtMsg).Carries ∧ (fun _ => none : Disk) [47] = none := ⟨⟨_, _, rfl⟩, rfl⟩

end Verif.Loan
