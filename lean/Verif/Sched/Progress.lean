import Verif.Sched.Lemmas

/-! Threads left alone come to rest, and only in expected states. -/

namespace Verif.Sched

open Verif.Xchg Verif.Uuid

def qwt : Handler → Nat
  | .tick => 7
  | .joined _ => 12
  | .query => 7

def wt : Act → Nat
  | .search => 4
  | .look _ .join => 16
  | .look _ _ => 5
  | .init => 6
  | .sending n => n + 1
  | .post h => 1 + qwt h
  | .query => 10
  | .wait => 2
  | .start => 9
  | _ => 1

def cb : Act → Nat
  | .callback => 1
  | _ => 0

def tg : Act → Nat
  | .targets => 1
  | _ => 0

def N (f : Act → Nat) (s : St) : Nat := (s.app.map f).sum + (s.net.map f).sum + (s.mdns.map f).sum

theorem N_set (f : Act → Nat) (s : St) (w : Who) (p : List Act) :
    N f (s.setProg w p) + ((s.prog w).map f).sum = N f s + (p.map f).sum := by
  cases w <;> simp only [N, St.setProg, St.prog] <;> omega

def W (s : St) : Nat :=
  N wt s + (s.queue.map qwt).sum + (if s.life = .running then 1 else 0) + (if s.bad = none then 1 else 0)

/-- Rank of a state, compared lexicographically. -/
def rank (s : St) : Nat × Nat × Nat := (N cb s, N tg s, W s)

def lt3 (a b : Nat × Nat × Nat) : Prop := a.1 < b.1 ∨ a.1 = b.1 ∧ (a.2.1 < b.2.1 ∨ a.2.1 = b.2.1 ∧ a.2.2 < b.2.2)

theorem lt3_wf : WellFounded lt3 := by
  have key : ∀ a b c, Acc lt3 (a, b, c) := by
    intro a
    induction a using Nat.strongRecOn with
    | _ a iha =>
      intro b
      induction b using Nat.strongRecOn with
      | _ b ihb =>
        intro c
        induction c using Nat.strongRecOn with
        | _ c ihc =>
          refine ⟨_, ?_⟩
          rintro ⟨a', b', c'⟩ (h | ⟨h1, h | ⟨h2, h⟩⟩)
          · exact iha a' h b' c'
          · simp only at h1 h; subst h1; exact ihb b' h c'
          · simp only at h1 h2 h; subst h1; subst h2; exact ihc c' h
  exact ⟨fun ⟨a, b, c⟩ => key a b c⟩

theorem user_cb (us : List User) : ((us.flatMap User.prog).map cb).sum = 0 := by
  induction us with
  | nil => rfl
  | cons u us ih =>
    rw [List.flatMap_cons, List.map_append, List.sum_append, ih]
    cases u <;> rfl

/-- A step that keeps callbacks and sends and loses weight. -/
theorem lt3_of (s s' : St) (h1 : N cb s' = N cb s) (h2 : N tg s' = N tg s) (h3 : W s' < W s) : lt3 (rank s') (rank s) :=
  .inr ⟨h1, .inr ⟨h2, h3⟩⟩

theorem exec_lt (w : Who) (a : Act) (r : List Act) (c : Choice) (s s' : St) (hp : s.prog w = a :: r) (hb : s.bad = none)
    (h : exec w a r c s = some s') : lt3 (rank s') (rank s) := by
  have hN : ∀ f (x : St) (p : List Act), (∀ v, x.prog v = s.prog v) →
      N f (x.setProg w p) + (f a + (r.map f).sum) = N f s + (p.map f).sum := by
    intro f x p hx
    have h1 := N_set f x w p
    have h2 : N f x = N f s := by
      have e1 := hx .app; have e2 := hx .net; have e3 := hx .mdns
      simp only [St.prog] at e1 e2 e3
      simp only [N, e1, e2, e3]
    rw [hx w, hp, List.map_cons, List.sum_cons] at h1
    omega
  have hW : ∀ (x : St) (p : List Act), (x.setProg w p).queue = x.queue ∧ (x.setProg w p).life = x.life ∧ (x.setProg w p).bad = x.bad := by
    intro x p; cases w <;> exact ⟨rfl, rfl, rfl⟩
  -- the common case: other programs, queue and life unchanged
  have plain : ∀ (x : St) (p : List Act), (∀ v, x.prog v = s.prog v) → x.queue = s.queue → x.life = s.life → x.bad = s.bad →
      cb a + (r.map cb).sum = (p.map cb).sum → tg a + (r.map tg).sum = (p.map tg).sum →
      (p.map wt).sum < wt a + (r.map wt).sum → lt3 (rank (x.setProg w p)) (rank s) := by
    intro x p hx hq hl hbd e1 e2 e3
    have n1 := hN cb x p hx
    have n2 := hN tg x p hx
    have n3 := hN wt x p hx
    obtain ⟨w1, w2, w3⟩ := hW x p
    refine lt3_of _ _ (by omega) (by omega) ?_
    unfold W
    rw [w1, w2, w3, hq, hl, hbd]
    omega
  cases a with
  | lock m =>
    simp only [exec] at h
    split at h <;> simp only [Option.some.injEq, reduceCtorEq] at h
    subst h
    exact plain _ _ (fun v => by cases m <;> cases v <;> rfl) (by cases m <;> rfl) (by cases m <;> rfl) (by cases m <;> rfl)
      (by simp [cb]) (by simp [tg]) (by simp [wt])
  | unlock m =>
    simp only [exec, Option.some.injEq] at h
    subst h
    exact plain _ _ (fun v => by cases m <;> cases v <;> rfl) (by cases m <;> rfl) (by cases m <;> rfl) (by cases m <;> rfl)
      (by simp [cb]) (by simp [tg]) (by simp [wt])
  | look u why =>
    simp only [exec, Option.some.injEq] at h
    subst h
    cases hf : singleMember u s.found <;> cases why <;>
      exact plain _ _ (fun v => rfl) rfl rfl rfl (by simp [cb]) (by simp [tg]) (by simp [wt, qwt] <;> omega)
  | init =>
    simp only [exec, Option.some.injEq] at h
    subst h
    cases s.initialised <;>
      exact plain _ _ (fun v => rfl) rfl rfl rfl (by simp [cb]) (by simp [tg]) (by simp [wt] <;> omega)
  | targets =>
    simp only [exec, Option.some.injEq] at h
    subst h
    have n1 := hN cb s (.unlock .group :: .sending (Xchg.targets s.group []).length :: r) (fun _ => rfl)
    have n2 := hN tg s (.unlock .group :: .sending (Xchg.targets s.group []).length :: r) (fun _ => rfl)
    simp only [List.map_cons, List.sum_cons, cb, tg] at n1 n2
    exact .inr ⟨by show N cb _ = N cb _; omega, .inl (by show N tg _ < N tg _; omega)⟩
  | sending n =>
    simp only [exec, Option.some.injEq] at h
    subst h
    by_cases hn : n = 0
    · simp only [hn, if_true]
      exact plain _ _ (fun v => rfl) rfl rfl rfl (by simp [cb]) (by simp [tg]) (by simp [wt])
    · simp only [hn, if_false]
      exact plain _ _ (fun v => rfl) rfl rfl rfl (by simp [cb]) (by simp [tg]) (by simp [wt]; omega)
  | post q =>
    simp only [exec, Option.some.injEq] at h
    subst h
    have hx : ∀ v, { s with queue := s.queue ++ [q] }.prog v = s.prog v := fun v => by cases v <;> rfl
    have n1 := hN cb { s with queue := s.queue ++ [q] } r hx
    have n2 := hN tg { s with queue := s.queue ++ [q] } r hx
    have n3 := hN wt { s with queue := s.queue ++ [q] } r hx
    obtain ⟨w1, w2, w3⟩ := hW { s with queue := s.queue ++ [q] } r
    simp only [cb, tg, wt] at n1 n2 n3
    refine lt3_of _ _ (by omega) (by omega) ?_
    unfold W
    rw [w1, w2, w3]
    simp only [List.map_append, List.sum_append, List.map_cons, List.map_nil, List.sum_cons, List.sum_nil]
    omega
  | query =>
    simp only [exec, Option.some.injEq] at h
    subst h
    by_cases hn : s.life = .none
    · simp only [hn, if_true]
      exact plain _ _ (fun v => rfl) rfl rfl rfl (by simp [cb]) (by simp [tg]) (by simp [wt])
    · simp only [hn, if_false]
      have hx : ∀ v, { s with queue := s.queue ++ [Handler.query], cv := true }.prog v = s.prog v := fun v => by cases v <;> rfl
      have n1 := hN cb { s with queue := s.queue ++ [Handler.query], cv := true } (.wait :: r) hx
      have n2 := hN tg { s with queue := s.queue ++ [Handler.query], cv := true } (.wait :: r) hx
      have n3 := hN wt { s with queue := s.queue ++ [Handler.query], cv := true } (.wait :: r) hx
      obtain ⟨w1, w2, w3⟩ := hW { s with queue := s.queue ++ [Handler.query], cv := true } (.wait :: r)
      simp only [cb, tg, wt, List.map_cons, List.sum_cons] at n1 n2 n3
      refine lt3_of _ _ (by omega) (by omega) ?_
      unfold W
      rw [w1, w2, w3]
      simp only [List.map_append, List.sum_append, List.map_cons, List.map_nil, List.sum_cons, List.sum_nil, qwt]
      omega
  | wait =>
    simp only [exec, Option.some.injEq] at h
    subst h
    exact plain _ _ (fun v => rfl) rfl rfl rfl (by simp [cb]) (by simp [tg]) (by simp [wt])
  | blocked => simp [exec] at h
  | notify =>
    simp only [exec] at h
    split at h
    · split at h <;> simp only [Option.some.injEq] at h <;> subst h
      · rename_i p he
        cases w with
        | app => simp only [St.prog, he] at hp; cases hp
        | net =>
          simp only [St.prog] at hp
          refine lt3_of _ _ ?_ ?_ ?_ <;> simp only [W, N, St.setProg, he, hp, hb, List.map_cons, List.sum_cons, cb, tg, wt] <;>
            by_cases hlf : s.life = .running <;> (try simp only [hlf, if_true, if_false]) <;> omega
        | mdns =>
          simp only [St.prog] at hp
          refine lt3_of _ _ ?_ ?_ ?_ <;> simp only [W, N, St.setProg, he, hp, hb, List.map_cons, List.sum_cons, cb, tg, wt] <;>
            by_cases hlf : s.life = .running <;> (try simp only [hlf, if_true, if_false]) <;> omega
      · exact plain _ _ (fun v => rfl) rfl rfl rfl (by simp [cb]) (by simp [tg]) (by simp [wt])
    · simp only [Option.some.injEq] at h
      subst h
      have hx : ∀ v, { s with bad := some Bad.undefined }.prog v = s.prog v := fun v => by cases v <;> rfl
      have n1 := hN cb { s with bad := some Bad.undefined } r hx
      have n2 := hN tg { s with bad := some Bad.undefined } r hx
      have n3 := hN wt { s with bad := some Bad.undefined } r hx
      obtain ⟨w1, w2, w3⟩ := hW { s with bad := some Bad.undefined } r
      simp only [cb, tg, wt] at n1 n2 n3
      refine lt3_of _ _ (by omega) (by omega) ?_
      unfold W
      rw [w1, w2, w3]
      simp only [hb, reduceCtorEq, if_true, if_false]
      omega
  | joinNet =>
    simp only [exec] at h
    split at h
    · simp only [Option.some.injEq] at h
      subst h
      refine lt3_of _ _ rfl rfl ?_
      unfold W
      simp only [hb, reduceCtorEq, if_true, if_false, N]
      omega
    · split at h <;> simp only [Option.some.injEq, reduceCtorEq] at h
      subst h
      exact plain _ _ (fun v => by cases v <;> rfl) rfl rfl rfl (by simp [cb]) (by simp [tg]) (by simp [wt])
  | joinMdns =>
    simp only [exec] at h
    split at h <;> simp only [Option.some.injEq, reduceCtorEq] at h
    rename_i hl
    subst h
    have hx : ∀ v, { s with life := Life.none }.prog v = s.prog v := fun v => by cases v <;> rfl
    have n1 := hN cb { s with life := Life.none } r hx
    have n2 := hN tg { s with life := Life.none } r hx
    have n3 := hN wt { s with life := Life.none } r hx
    obtain ⟨w1, w2, w3⟩ := hW { s with life := Life.none } r
    simp only [cb, tg, wt] at n1 n2 n3
    refine lt3_of _ _ (by omega) (by omega) ?_
    unfold W
    rw [w1, w2, w3]
    simp only [reduceCtorEq, if_false]
    omega
  | start =>
    simp only [exec, Option.some.injEq] at h
    subst h
    have hx : ∀ v, { s with stopFlag := false, life := Life.running, queue := s.queue ++ [Handler.tick] }.prog v = s.prog v :=
      fun v => by cases v <;> rfl
    have n1 := hN cb { s with stopFlag := false, life := Life.running, queue := s.queue ++ [Handler.tick] } r hx
    have n2 := hN tg { s with stopFlag := false, life := Life.running, queue := s.queue ++ [Handler.tick] } r hx
    have n3 := hN wt { s with stopFlag := false, life := Life.running, queue := s.queue ++ [Handler.tick] } r hx
    obtain ⟨w1, w2, w3⟩ := hW { s with stopFlag := false, life := Life.running, queue := s.queue ++ [Handler.tick] } r
    simp only [cb, tg, wt] at n1 n2 n3
    refine lt3_of _ _ (by omega) (by omega) ?_
    unfold W
    rw [w1, w2, w3]
    simp only [List.map_append, List.sum_append, List.map_cons, List.map_nil, List.sum_cons, List.sum_nil, qwt, if_true]
    omega
  | callback =>
    simp only [exec, Option.some.injEq] at h
    subst h
    have n1 := hN cb s (c.user.flatMap User.prog ++ r) (fun _ => rfl)
    rw [List.map_append, List.sum_append, user_cb] at n1
    simp only [cb] at n1
    exact .inl (by show N cb _ < N cb _; omega)
  | _ =>
    simp only [exec, Option.some.injEq] at h
    subst h
    exact plain _ _ (fun v => by cases v <;> rfl) rfl rfl rfl (by simp [cb]) (by simp [tg])
      (by simp [wt] <;> omega)

theorem quiet_lt (s s' : St) (l : Label) (hl : l.Quiet) (h : step s l = some s') : lt3 (rank s') (rank s) := by
  unfold step at h
  split at h
  · rename_i hb
    cases l with
    | act w c =>
      simp only at h
      split at h
      · cases h
      · rename_i a r hp
        exact exec_lt w a r c s s' hp hb h
    | take =>
      simp only at h
      split at h
      · rename_i q qs hq
        split at h <;> simp only [Option.some.injEq, reduceCtorEq] at h
        rename_i ha
        subst h
        refine lt3_of _ _ ?_ ?_ ?_ <;> simp only [W, N, hq, ha.2] <;> cases q <;>
          simp only [Handler.prog, List.map_cons, List.map_nil, List.sum_cons, List.sum_nil, cb, tg, wt, qwt] <;> omega
      · cases h
    | finish =>
      simp only at h
      split at h <;> simp only [Option.some.injEq, reduceCtorEq] at h
      rename_i ha
      subst h
      refine lt3_of _ _ rfl rfl ?_
      simp only [W, N, ha.1, reduceCtorEq, if_true, if_false]
      omega
    | _ => exact absurd hl (by simp [Label.Quiet])
  · cases h

/-- No infinite run without new events. -/
theorem no_infinite (f : Nat → St) (h : ∀ n, ∃ l : Label, l.Quiet ∧ step (f n) l = some (f (n + 1))) : False := by
  have key : ∀ x, ∀ n, rank (f n) = x → False := by
    intro x
    induction x using lt3_wf.induction with
    | _ x ih =>
      intro n hn
      obtain ⟨l, hl, hs⟩ := h n
      exact ih _ (hn ▸ quiet_lt _ _ l hl hs) (n + 1) rfl
  exact key _ 0 rfl

/-! ## Progress -/

def quietChoice : Choice := ⟨[], []⟩

/-- The thread can do its next action. -/
def Can (s : St) (w : Who) : Prop := ∃ s', step s (.act w quietChoice) = some s'

theorem can_of (s : St) (w : Who) (a : Act) (r : List Act) (hb : s.bad = none) (hp : s.prog w = a :: r) (s' : St)
    (h : exec w a r quietChoice s = some s') : Can s w := by
  refine ⟨s', ?_⟩
  unfold step
  rw [if_pos hb]
  simp only [hp]
  exact h

/-- An action that never has to wait. -/
def free : Act → Bool
  | .lock _ | .blocked | .joinNet | .joinMdns => false
  | _ => true

theorem can_free (s : St) (w : Who) (a : Act) (r : List Act) (hb : s.bad = none) (hp : s.prog w = a :: r)
    (hf : free a = true) : Can s w := by
  have : ∃ s', exec w a r quietChoice s = some s' := by
    cases a with
    | notify => 
      simp only [exec]
      split
      · split <;> exact ⟨_, rfl⟩
      · exact ⟨_, rfl⟩
    | lock _ | blocked | joinNet | joinMdns => simp [free] at hf
    | _ => exact ⟨_, rfl⟩
  obtain ⟨s', h⟩ := this
  exact can_of s w a r hb hp s' h

/-- Who holds the second mutex can go on. -/
theorem holder_found (s : St) (hi : Inv s) (w : Who) (h : s.ownFound = some w) : Can s w := by
  have hd := hi.disc w
  unfold D at hd
  cases hp : s.prog w with
  | nil => rw [hp] at hd; simp [disc, h] at hd
  | cons a r =>
    refine can_free s w a r hi.two.bad hp ?_
    rw [hp] at hd
    cases a with
    | lock m => cases m <;> simp [disc, h] at hd
    | blocked | joinNet | joinMdns => simp [disc, h] at hd
    | _ => rfl

theorem can_lock_found (s : St) (hi : Inv s) (w : Who) (r : List Act) (hp : s.prog w = .lock .found :: r) : ∃ v, Can s v := by
  cases h : s.ownFound with
  | some v => exact ⟨v, holder_found s hi v h⟩
  | none => exact ⟨w, can_of s w _ r hi.two.bad hp ((s.setOwner Mutex.found (some w)).setProg w r) (by simp only [exec, St.owner, h, if_true])⟩

/-- Who holds the first mutex can go on, or somebody else can. -/
theorem holder_group (s : St) (hi : Inv s) (w : Who) (h : s.ownGroup = some w) : ∃ v, Can s v := by
  have hd := hi.disc w
  unfold D at hd
  cases hp : s.prog w with
  | nil => rw [hp] at hd; simp [disc, h] at hd
  | cons a r =>
    rw [hp] at hd
    cases a with
    | lock m =>
      cases m with
      | group => simp [disc, h] at hd
      | found => exact can_lock_found s hi w r hp
    | blocked | joinNet | joinMdns => simp [disc, h] at hd
    | _ => exact ⟨w, can_free s w _ r hi.two.bad hp rfl⟩

theorem can_lock (s : St) (hi : Inv s) (w : Who) (m : Mutex) (r : List Act) (hp : s.prog w = .lock m :: r) : ∃ v, Can s v := by
  cases m with
  | found => exact can_lock_found s hi w r hp
  | group =>
    cases h : s.ownGroup with
    | some v => exact holder_group s hi v h
    | none => exact ⟨w, can_of s w _ r hi.two.bad hp ((s.setOwner Mutex.group (some w)).setProg w r) (by simp only [exec, St.owner, h, if_true])⟩

/-- The server thread and the search thread never wait for anything but a mutex. -/
theorem can_other (s : St) (hi : Inv s) (w : Who) (hw : w ≠ .app) (hp : s.prog w ≠ []) : ∃ v, Can s v := by
  cases h : s.prog w with
  | nil => exact absurd h hp
  | cons a r =>
    have hm := hi.may w a (by rw [h]; simp)
    cases a with
    | lock m => exact can_lock s hi w m r h
    | blocked | joinNet | joinMdns => cases w <;> first | exact absurd rfl hw | simp [may] at hm
    | _ => exact ⟨w, can_free s w _ r hi.two.bad h rfl⟩

theorem rests_of (s : St) (hi : Inv s) (h : Rests s) : (s.app = [] ∨ Missed s) ∧ s.net = [] ∧ s.mdns = [] := by
  have hno : ¬∃ v, Can s v := by
    rintro ⟨v, s', hs⟩
    rw [h (.act v quietChoice) trivial] at hs
    cases hs
  have hn : s.net = [] := by
    by_cases e : s.net = []
    · exact e
    · exact absurd (can_other s hi .net (by simp) e) hno
  have hm : s.mdns = [] := by
    by_cases e : s.mdns = []
    · exact e
    · exact absurd (can_other s hi .mdns (by simp) e) hno
  refine ⟨?_, hn, hm⟩
  cases ha : s.app with
  | nil => exact .inl rfl
  | cons a r =>
    cases a with
    | lock m => exact absurd (can_lock s hi .app m r ha) hno
    | joinNet =>
      refine absurd ⟨.app, can_of s .app _ r hi.two.bad ha ({ s with netUp := false, halted := false }.setProg .app r) ?_⟩ hno
      simp only [exec, reduceCtorEq, if_false, hn, if_true]
    | joinMdns =>
      cases hl : s.life with
      | none =>
        refine absurd ⟨.app, can_of s .app _ r hi.two.bad ha ({ s with life := .none }.setProg .app r) ?_⟩ hno
        simp only [exec, hl]
      | ended =>
        refine absurd ⟨.app, can_of s .app _ r hi.two.bad ha ({ s with life := .none }.setProg .app r) ?_⟩ hno
        simp only [exec, hl]
      | running =>
        have hs : s.stopFlag = true := by
          rcases hi.two.app with e | e
          · rw [ha] at e; simp [appOk] at e
          · exact e.1
        have := h .finish trivial
        unfold step at this
        rw [if_pos hi.two.bad] at this
        simp [hl, hm, hs] at this
    | blocked =>
      refine .inr ⟨⟨r, .inr ha⟩, ?_, by simp [hm]⟩
      intro hq
      have hlife : s.life = .running := by
        rcases hi.two.stop with e | e | ⟨-, q, e⟩
        · rcases hi.two.app with e2 | ⟨-, q, e2, -⟩
          · rw [ha, e] at e2
            simp [appOk] at e2
          · rw [ha] at e2; cases e2
        · exact e.1
        · rw [ha] at e; cases e
      have := h .take trivial
      unfold step at this
      rw [if_pos hi.two.bad] at this
      cases hqq : s.queue with
      | nil => rw [hqq] at hq; cases hq
      | cons x xs => simp [hqq, hlife, hm] at this
    | _ => exact absurd ⟨.app, can_free s .app _ r hi.two.bad ha rfl⟩ hno

end Verif.Sched
