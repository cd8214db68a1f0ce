import Verif.Sched.Spec

/-! Invariants of the threads and lemmas about single steps. -/

namespace Verif.Sched

open Verif.Xchg Verif.Uuid

/-- The actions respect the mutexes: data is touched under its mutex, `found` is taken last, nothing is waited for while a
mutex is held.  `g`, `f`: the thread holds `group`, `found`. -/
def disc : Bool → Bool → List Act → Bool
  | g, f, [] => !g && !f
  | g, f, .lock .group :: r => !g && !f && disc true false r
  | g, f, .lock .found :: r => !f && disc g true r
  | g, f, .unlock .group :: r => g && !f && disc false false r
  | g, f, .unlock .found :: r => f && disc g false r
  | g, f, .store _ :: r | g, f, .get _ :: r => !g && f && disc false true r
  | g, f, .look _ _ :: r | g, f, .init :: r => !g && f && disc false false r
  | g, f, .put _ :: r | g, f, .push _ :: r | g, f, .drop :: r => g && !f && disc true false r
  | g, f, .members _ :: r => g && f && disc true true r
  | g, f, .targets :: r => g && !f && disc false false r
  | g, f, .search :: r | g, f, .sending _ :: r | g, f, .post _ :: r | g, f, .query :: r | g, f, .wait :: r
  | g, f, .blocked :: r | g, f, .notify :: r | g, f, .halt :: r | g, f, .joinNet :: r | g, f, .listen :: r
  | g, f, .stop :: r | g, f, .joinMdns :: r | g, f, .start :: r | g, f, .announce :: r | g, f, .silence :: r
  | g, f, .setCallback :: r | g, f, .callback :: r | g, f, .arm :: r => !g && !f && disc false false r

/-- What the threads do at all. -/
def may : Who → Act → Bool
  | _, .lock _ | _, .unlock _ => true
  | .app, .search | .app, .store _ | .app, .init | .app, .members _ | .app, .targets | .app, .sending _ | .app, .get _
  | .app, .query | .app, .wait | .app, .blocked | .app, .halt | .app, .joinNet | .app, .listen | .app, .stop
  | .app, .joinMdns | .app, .start | .app, .announce | .app, .silence | .app, .setCallback => true
  | .net, .look _ .join | .net, .look _ .leave | .net, .put _ | .net, .drop | .net, .post (.joined _) | .net, .targets
  | .net, .sending _ | .net, .get _ | .net, .callback => true
  | .mdns, .search | .mdns, .store _ | .mdns, .look _ .posted | .mdns, .push _ | .mdns, .notify | .mdns, .arm => true
  | _, _ => false

/-- The application thread changes our own announcements only while there is no search thread; `up`: there is one. -/
def appOk : Bool → List Act → Bool
  | _, [] => true
  | _, .stop :: .joinMdns :: r => appOk false r
  | _, .stop :: _ => false
  | _, .joinMdns :: _ => false
  | up, .start :: r => !up && appOk true r
  | up, .announce :: r | up, .silence :: r => !up && appOk false r
  | up, .wait :: r | up, .blocked :: r => up && appOk true r
  | up, _ :: r => appOk up r

def waits : List Act → Bool
  | .wait :: _ | .blocked :: _ => true
  | _ => false

/-- How many searches for `QueryLocalServices` are still to be announced. -/
def pending (s : St) : Nat := s.queue.count .query + s.mdns.countP fun a => match a with | .notify => true | _ => false

theorem disc_append (p q : List Act) : ∀ g f, disc g f p = true → disc false false q = true → disc g f (p ++ q) = true := by
  intro g f hp hq
  induction p generalizing g f with
  | nil => simp [disc] at hp; simp [hp, hq]
  | cons a p ih =>
    cases a with
    | lock m => cases m <;> cases g <;> cases f <;> simp_all [disc]
    | unlock m => cases m <;> cases g <;> cases f <;> simp_all [disc]
    | _ => simp_all [disc]

theorem disc_user (us : List User) : disc false false (us.flatMap User.prog) = true := by
  induction us with
  | nil => rfl
  | cons u us ih =>
    rw [List.flatMap_cons]
    refine disc_append _ _ _ _ ?_ ih
    cases u <;> rfl


theorem setProg_prog (s : St) (w v : Who) (p : List Act) : (s.setProg w p).prog v = if v = w then p else s.prog v := by
  cases w <;> cases v <;> simp [St.setProg, St.prog]

/-- Discipline of one thread. -/
def D (s : St) (w : Who) : Prop := disc (decide (s.ownGroup = some w)) (decide (s.ownFound = some w)) (s.prog w) = true

theorem exec_disc (w : Who) (a : Act) (r : List Act) (c : Choice) (s s' : St) (hp : s.prog w = a :: r)
    (hd : ∀ v, D s v) (h : exec w a r c s = some s') (v : Who) : D s' v := by
  have hw := hd w
  have hv := hd v
  unfold D at hw hv ⊢
  rw [hp] at hw
  cases a with
  | lock m =>
    simp only [exec] at h
    split at h <;> simp only [Option.some.injEq, reduceCtorEq] at h
    subst h
    cases m <;> cases w <;> cases v <;> simp_all [St.prog, St.setProg, St.setOwner, St.owner, disc] <;> exact hv
  | unlock m =>
    simp only [exec, Option.some.injEq] at h
    subst h
    cases m <;> cases w <;> cases v <;> simp_all [St.prog, St.setProg, St.setOwner, St.owner, disc] <;> exact hv
  | look u why =>
    simp only [exec, Option.some.injEq] at h
    subst h
    cases why <;> cases singleMember u s.found <;> cases w <;> cases v <;> simp_all [St.prog, St.setProg, disc] <;> exact hv
  | init =>
    simp only [exec, Option.some.injEq] at h
    subst h
    cases hi : s.initialised <;> cases w <;> cases v <;> simp_all [St.prog, St.setProg, disc] <;> exact hv
  | sending n =>
    simp only [exec, Option.some.injEq] at h
    subst h
    by_cases hn : n = 0 <;> cases w <;> cases v <;> simp_all [St.prog, St.setProg, disc] <;> exact hv
  | query =>
    simp only [exec, Option.some.injEq] at h
    subst h
    by_cases hn : s.life = .none <;> cases w <;> cases v <;> simp_all [St.prog, St.setProg, disc] <;> exact hv
  | blocked => simp [exec] at h
  | notify =>
    have ha := hd .app
    unfold D at ha
    simp only [exec] at h
    split at h
    · split at h <;> simp only [Option.some.injEq] at h <;> subst h <;>
        cases w <;> cases v <;> simp_all [St.prog, St.setProg, disc] <;> exact hv
    · simp only [Option.some.injEq] at h
      subst h
      cases w <;> cases v <;> simp_all [St.prog, St.setProg, disc] <;> exact hv
  | joinNet =>
    simp only [exec] at h
    split at h
    · simp only [Option.some.injEq] at h
      subst h
      cases v <;> simp_all [St.prog, disc] <;> exact hv
    · split at h <;> simp only [Option.some.injEq, reduceCtorEq] at h
      subst h
      cases w <;> cases v <;> simp_all [St.prog, St.setProg, disc] <;> exact hv
  | joinMdns =>
    simp only [exec] at h
    split at h <;> simp only [Option.some.injEq, reduceCtorEq] at h
    subst h
    cases w <;> cases v <;> simp_all [St.prog, St.setProg, disc] <;> exact hv
  | callback =>
    simp only [exec, Option.some.injEq] at h
    subst h
    have hu : disc false false r = true → disc false false (c.user.flatMap User.prog ++ r) = true :=
      disc_append _ _ _ _ (disc_user c.user)
    cases w <;> cases v <;> simp_all [St.prog, St.setProg, disc] <;> exact hv
  | _ =>
    simp only [exec, Option.some.injEq] at h
    subst h
    cases w <;> cases v <;> simp_all [St.prog, St.setProg, disc] <;> exact hv


theorem may_user (us : List User) (h : ∀ u ∈ us, u ≠ .leave) : ∀ a ∈ us.flatMap User.prog, may .net a = true := by
  intro a ha
  obtain ⟨u, hu, hau⟩ := List.mem_flatMap.1 ha
  cases u with
  | leave => exact absurd rfl (h _ hu)
  | send => simp only [User.prog, sendProg, List.mem_cons, List.not_mem_nil, or_false] at hau; rcases hau with rfl | rfl <;> rfl
  | «at» i => simp only [User.prog, getProg, List.mem_cons, List.not_mem_nil, or_false] at hau; rcases hau with rfl | rfl | rfl <;> rfl

theorem may_set (s : St) (w : Who) (p : List Act) (hd : ∀ v, ∀ a ∈ s.prog v, may v a = true) (hp : ∀ a ∈ p, may w a = true)
    (v : Who) : ∀ a ∈ (s.setProg w p).prog v, may v a = true := by
  rw [setProg_prog]
  split
  · rename_i e; rw [e]; exact hp
  · exact hd v

theorem may_cons (w : Who) (a : Act) (p : List Act) (ha : may w a = true) (hp : ∀ b ∈ p, may w b = true) :
    ∀ b ∈ a :: p, may w b = true := by
  intro b hb
  rcases List.mem_cons.1 hb with rfl | hb
  · exact ha
  · exact hp b hb

theorem exec_may (w : Who) (a : Act) (r : List Act) (c : Choice) (s s' : St) (hp : s.prog w = a :: r)
    (hc : ∀ u ∈ c.user, u ≠ .leave) (hd : ∀ v, ∀ a ∈ s.prog v, may v a = true) (h : exec w a r c s = some s') :
    ∀ v, ∀ a ∈ s'.prog v, may v a = true := by
  have hw := hd w
  rw [hp] at hw
  have ha := hw a (by simp)
  have hr : ∀ b ∈ r, may w b = true := fun b hb => hw b (by simp [hb])
  clear hw
  have hk : ∀ m, may w (.lock m) = true := by intro m; cases w <;> rfl
  have hu : ∀ m, may w (.unlock m) = true := by intro m; cases w <;> rfl
  cases a with
  | lock m =>
    simp only [exec] at h
    split at h <;> simp only [Option.some.injEq, reduceCtorEq] at h
    subst h
    exact may_set _ _ _ (fun v => by cases m <;> cases v <;> first | exact hd .app | exact hd .net | exact hd .mdns) hr
  | unlock m =>
    simp only [exec, Option.some.injEq] at h
    subst h
    exact may_set _ _ _ (fun v => by cases m <;> cases v <;> first | exact hd .app | exact hd .net | exact hd .mdns) hr
  | search =>
    simp only [exec, Option.some.injEq] at h
    subst h
    refine may_set _ _ _ hd (may_cons _ _ _ (hk _) (may_cons _ _ _ ?_ (may_cons _ _ _ (hu _) hr)))
    cases w <;> first | rfl | exact ha
  | look u why =>
    simp only [exec, Option.some.injEq] at h
    subst h
    cases hf : singleMember u s.found <;> cases why <;>
      refine may_set _ _ _ hd (may_cons _ _ _ (hu _) ?_) <;>
      first
        | exact hr
        | (refine may_cons _ _ _ ?_ hr; cases w <;> first | rfl | exact ha)
        | (refine may_cons _ _ _ (hk _) (may_cons _ _ _ ?_ (may_cons _ _ _ (hu _) hr)); cases w <;> first | rfl | exact ha)
  | init =>
    simp only [exec, Option.some.injEq] at h
    subst h
    refine may_set _ _ _ hd (may_cons _ _ _ (hu _) ?_)
    cases s.initialised
    · refine may_cons _ _ _ ?_ hr
      cases w <;> first | rfl | exact ha
    · exact hr
  | targets =>
    simp only [exec, Option.some.injEq] at h
    subst h
    refine may_set _ _ _ hd (may_cons _ _ _ (hu _) (may_cons _ _ _ ?_ hr))
    cases w <;> first | rfl | exact ha
  | sending n =>
    simp only [exec, Option.some.injEq] at h
    subst h
    refine may_set _ _ _ hd ?_
    split
    · exact hr
    · exact may_cons _ _ _ (by cases w <;> first | rfl | exact ha) hr
  | query =>
    simp only [exec, Option.some.injEq] at h
    subst h
    split
    · exact may_set _ _ _ hd (may_cons _ _ _ (by cases w <;> first | rfl | exact ha) hr)
    · exact may_set _ _ _ (fun v => by cases v <;> first | exact hd .app | exact hd .net | exact hd .mdns) (may_cons _ _ _ (by cases w <;> first | rfl | exact ha) hr)
  | wait =>
    simp only [exec, Option.some.injEq] at h
    subst h
    exact may_set _ _ _ hd (may_cons _ _ _ (by cases w <;> first | rfl | exact ha) hr)
  | blocked => simp [exec] at h
  | notify =>
    simp only [exec] at h
    split at h
    · split at h <;> simp only [Option.some.injEq] at h <;> subst h
      · rename_i he
        refine may_set _ _ _ (fun v => ?_) hr
        cases v
        · have h2 := hd .app
          simp only [St.prog, he] at h2
          exact fun b hb => h2 b (List.mem_cons_of_mem _ hb)
        · exact hd .net
        · exact hd .mdns
      · exact may_set _ _ _ hd hr
    · simp only [Option.some.injEq] at h
      subst h
      exact may_set _ _ _ (fun v => by cases v <;> first | exact hd .app | exact hd .net | exact hd .mdns) hr
  | joinNet =>
    simp only [exec] at h
    split at h
    · simp only [Option.some.injEq] at h
      subst h
      exact fun v => by cases v <;> first | exact hd .app | exact hd .net | exact hd .mdns
    · split at h <;> simp only [Option.some.injEq, reduceCtorEq] at h
      subst h
      exact may_set _ _ _ (fun v => by cases v <;> first | exact hd .app | exact hd .net | exact hd .mdns) hr
  | joinMdns =>
    simp only [exec] at h
    split at h <;> simp only [Option.some.injEq, reduceCtorEq] at h
    subst h
    exact may_set _ _ _ (fun v => by cases v <;> first | exact hd .app | exact hd .net | exact hd .mdns) hr
  | callback =>
    simp only [exec, Option.some.injEq] at h
    subst h
    refine may_set _ _ _ hd ?_
    intro b hb
    rcases List.mem_append.1 hb with hb | hb
    · cases w with
      | net => exact may_user c.user hc b hb
      | _ => simp [may] at ha
    · exact hr b hb
  | _ =>
    simp only [exec, Option.some.injEq] at h
    subst h
    exact may_set _ _ _ (fun v => by cases v <;> first | exact hd .app | exact hd .net | exact hd .mdns) hr

/-- What is left of `Inv` for the application thread and the search thread. -/
structure Inv2 (s : St) : Prop where
  app : appOk (s.life != .none) s.app = true ∨ s.stopFlag = true ∧ ∃ p, s.app = .joinMdns :: p ∧ appOk false p = true
  stop : s.life = .none ∨ (s.life = .running ∧ s.stopFlag = false) ∨ (s.stopFlag = true ∧ ∃ p, s.app = .joinMdns :: p)
  idle : s.life ≠ .running → s.mdns = []
  pend : pending s = 0 ∨ pending s = 1 ∧ waits s.app = true ∧ s.cv = true
  bad : s.bad = none

theorem exec_inv2_net (a : Act) (r : List Act) (c : Choice) (s s' : St) (hp : s.net = a :: r)
    (ha : may .net a = true) (hi : Inv2 s) (h : exec .net a r c s = some s') : Inv2 s' := by
  obtain ⟨h1, h2, h3, h4, h5⟩ := hi
  cases a with
  | lock m =>
    simp only [exec] at h
    split at h <;> simp only [Option.some.injEq, reduceCtorEq] at h
    subst h
    cases m <;> exact ⟨h1, h2, h3, h4, h5⟩
  | unlock m =>
    simp only [exec, Option.some.injEq] at h
    subst h
    cases m <;> exact ⟨h1, h2, h3, h4, h5⟩
  | look u why =>
    simp only [exec, Option.some.injEq] at h
    subst h
    cases why <;> cases singleMember u s.found <;> exact ⟨h1, h2, h3, h4, h5⟩
  | post q =>
    simp only [exec, Option.some.injEq] at h
    subst h
    cases q with
    | joined u =>
      refine ⟨h1, h2, h3, ?_, h5⟩
      have : pending ({ s with queue := s.queue ++ [Handler.joined u] }.setProg .net r) = pending s := by
        simp [pending, St.setProg, List.count_append, List.count_cons]
      rw [this]
      exact h4
    | _ => simp [may] at ha
  | put _ | push _ | drop | targets | get _ | callback | sending _ =>
    simp only [exec, Option.some.injEq] at h
    subst h
    exact ⟨h1, h2, h3, h4, h5⟩
  | _ => simp [may] at ha

theorem exec_inv2_mdns (a : Act) (r : List Act) (c : Choice) (s s' : St) (hp : s.mdns = a :: r)
    (ha : may .mdns a = true) (hi : Inv2 s) (h : exec .mdns a r c s = some s') : Inv2 s' := by
  obtain ⟨h1, h2, h3, h4, h5⟩ := hi
  have hl : s.life = .running := by
    by_cases e : s.life = .running
    · exact e
    · simp [h3 e] at hp
  cases a with
  | lock m =>
    simp only [exec] at h
    split at h <;> simp only [Option.some.injEq, reduceCtorEq] at h
    subst h
    cases m <;> refine ⟨h1, h2, fun e => absurd hl e, ?_, h5⟩ <;> simpa [pending, St.setProg, St.setOwner, hp] using h4
  | unlock m =>
    simp only [exec, Option.some.injEq] at h
    subst h
    cases m <;> refine ⟨h1, h2, fun e => absurd hl e, ?_, h5⟩ <;> simpa [pending, St.setProg, St.setOwner, hp] using h4
  | look u why =>
    simp only [exec, Option.some.injEq] at h
    subst h
    cases why <;> cases singleMember u s.found <;> refine ⟨h1, h2, fun e => absurd hl e, ?_, h5⟩ <;>
      simpa [pending, St.setProg, hp] using h4
  | store _ | search | push _ | arm =>
    simp only [exec, Option.some.injEq] at h
    subst h
    refine ⟨h1, h2, fun e => absurd hl e, ?_, h5⟩
    simpa [pending, St.setProg, hp] using h4
  | notify =>
    have hpend : pending s = 1 ∧ waits s.app = true ∧ s.cv = true := by
      rcases h4 with e | e
      · simp [pending, hp] at e
      · exact e
    obtain ⟨e1, e2, e3⟩ := hpend
    simp only [exec, e3, if_true] at h
    split at h <;> simp only [Option.some.injEq] at h <;> subst h
    · rename_i p hap
      rw [hap] at h1
      have hn : (s.life != .none) = true := by rw [hl]; rfl
      rw [hn] at h1
      replace h1 : appOk true (.blocked :: p) = true := by
        rcases h1 with e | ⟨-, q, e, -⟩
        · exact e
        · cases e
      refine ⟨.inl ?_, .inr (.inl ?_), fun e => absurd hl e, .inl ?_, h5⟩
      · show appOk (s.life != .none) p = true
        rw [hn]
        simpa [appOk] using h1
      · rcases h2 with e | e | ⟨-, q, e⟩
        · rw [hl] at e; cases e
        · exact e
        · rw [hap] at e; cases e
      · simp only [pending, St.setProg, hp, List.countP_cons] at e1 ⊢
        simp only [if_true] at e1
        omega
    · refine ⟨h1, h2, fun e => absurd hl e, .inl ?_, h5⟩
      simp only [pending, St.setProg, hp, List.countP_cons] at e1 ⊢
      simp only [if_true] at e1
      omega
  | _ => simp [may] at ha

theorem exec_inv2_app (a : Act) (r : List Act) (c : Choice) (s s' : St) (hp : s.app = a :: r)
    (ha : may .app a = true) (hi : Inv2 s) (h : exec .app a r c s = some s') : Inv2 s' := by
  obtain ⟨h1, h2, h3, h4, h5⟩ := hi
  have h2' : a ≠ .joinMdns → s.life = .none ∨ (s.life = .running ∧ s.stopFlag = false) := by
    intro hne
    rcases h2 with e | e | ⟨-, q, e⟩
    · exact .inl e
    · exact .inr e
    · rw [hp] at e; cases e; exact absurd rfl hne
  have h4' : waits (a :: r) = false → pending s = 0 := by
    intro hw
    rcases h4 with e | ⟨-, e, -⟩
    · exact e
    · rw [hp, hw] at e; cases e
  have hst : ∀ x : St, x.life = s.life → x.stopFlag = s.stopFlag → a ≠ .joinMdns →
      x.life = .none ∨ (x.life = .running ∧ x.stopFlag = false) ∨ (x.stopFlag = true ∧ ∃ p, x.app = .joinMdns :: p) := by
    intro x e1 e2 hne
    rcases h2' hne with e | e
    · exact .inl (e1.trans e)
    · exact .inr (.inl ⟨e1.trans e.1, e2.trans e.2⟩)
  by_cases haj : a = .joinMdns
  · subst haj
    simp only [exec] at h
    split at h <;> simp only [Option.some.injEq, reduceCtorEq] at h
    rename_i hl
    subst h
    refine ⟨.inl ?_, .inl rfl, fun _ => h3 hl, .inl (h4' rfl), h5⟩
    rcases h1 with e | ⟨-, q, e, e'⟩
    · rw [hp] at e; simp [appOk] at e
    · rw [hp] at e; cases e; exact e'
  replace h1 : appOk (s.life != .none) (a :: r) = true := by
    rcases h1 with e | ⟨-, q, e, -⟩
    · rwa [hp] at e
    · rw [hp] at e; cases e; exact absurd rfl haj
  have h1s : (∀ up, appOk up (a :: r) = appOk up r) → appOk (s.life != .none) r = true := fun e => (e _) ▸ h1
  cases a with
  | lock m =>
    simp only [exec] at h
    split at h <;> simp only [Option.some.injEq, reduceCtorEq] at h
    subst h
    cases m <;> exact ⟨.inl (h1s (fun _ => rfl)), hst _ rfl rfl (by simp), h3, .inl (h4' rfl), h5⟩
  | unlock m =>
    simp only [exec, Option.some.injEq] at h
    subst h
    cases m <;> exact ⟨.inl (h1s (fun _ => rfl)), hst _ rfl rfl (by simp), h3, .inl (h4' rfl), h5⟩
  | init =>
    simp only [exec, Option.some.injEq] at h
    subst h
    refine ⟨.inl ?_, hst _ rfl rfl (by simp), h3, .inl (h4' rfl), h5⟩
    show appOk (s.life != .none) (.unlock .found :: (if s.initialised then r else .search :: r)) = true
    cases s.initialised <;> simpa [appOk] using h1
  | sending n =>
    simp only [exec, Option.some.injEq] at h
    subst h
    refine ⟨.inl ?_, hst _ rfl rfl (by simp), h3, .inl (h4' rfl), h5⟩
    show appOk (s.life != .none) (if n = 0 then r else .sending (n - 1) :: r) = true
    by_cases hn : n = 0 <;> simpa [hn, appOk] using h1
  | query =>
    simp only [exec, Option.some.injEq] at h
    subst h
    by_cases hn : s.life = .none
    · simp only [hn, if_true]
      exact ⟨.inl (by rw [hn] at h1; simpa [appOk, St.setProg, hn] using h1), .inl hn, h3, .inl (h4' rfl), h5⟩
    · simp only [hn, if_false]
      refine ⟨.inl ?_, hst _ rfl rfl (by simp), h3, .inr ⟨?_, rfl, rfl⟩, h5⟩
      · have hn' : (s.life != .none) = true := by simpa using hn
        rw [hn'] at h1
        show appOk (s.life != .none) (.wait :: r) = true
        rw [hn']
        simpa [appOk] using h1
      · have := h4' rfl
        simp only [pending, St.setProg, List.count_append] at this ⊢
        simp only [List.count_singleton_self]
        omega
  | wait =>
    simp only [exec, Option.some.injEq] at h
    subst h
    refine ⟨.inl (by simpa [appOk, St.setProg] using h1), hst _ rfl rfl (by simp), h3, ?_, h5⟩
    rcases h4 with e | ⟨e1, e2, e3⟩
    · exact .inl e
    · exact .inr ⟨e1, rfl, e3⟩
  | blocked => simp [exec] at h
  | joinNet =>
    simp only [exec] at h
    simp only [reduceCtorEq, if_false] at h
    split at h <;> simp only [Option.some.injEq, reduceCtorEq] at h
    subst h
    exact ⟨.inl (h1s (fun _ => rfl)), hst _ rfl rfl (by simp), h3, .inl (h4' rfl), h5⟩
  | stop =>
    simp only [exec, Option.some.injEq] at h
    subst h
    cases r with
    | nil => simp [appOk] at h1
    | cons b r =>
      cases b with
      | joinMdns =>
        refine ⟨.inr ⟨rfl, r, rfl, ?_⟩, .inr (.inr ⟨rfl, r, rfl⟩), h3, .inl (h4' rfl), h5⟩
        simpa [appOk] using h1
      | _ => simp [appOk] at h1
  | joinMdns => exact absurd rfl haj
  | start =>
    simp only [exec, Option.some.injEq] at h
    subst h
    simp only [appOk, Bool.and_eq_true] at h1
    refine ⟨.inl h1.2, .inr (.inl ⟨rfl, rfl⟩), fun e => absurd rfl e, .inl ?_, h5⟩
    have := h4' rfl
    simp only [pending, St.setProg, List.count_append] at this ⊢
    have e : List.count Handler.query [Handler.tick] = 0 := rfl
    omega
  | announce | silence =>
    simp only [exec, Option.some.injEq] at h
    subst h
    simp only [appOk, Bool.and_eq_true] at h1
    refine ⟨.inl ?_, hst _ rfl rfl (by simp), h3, .inl (h4' rfl), h5⟩
    show appOk (s.life != .none) r = true
    have : (s.life != .none) = false := by simpa using h1.1
    rw [this]
    exact h1.2
  | search | store _ | members _ | targets | get _ | halt | listen | setCallback =>
    simp only [exec, Option.some.injEq] at h
    subst h
    exact ⟨.inl (h1s (fun _ => rfl)), hst _ rfl rfl (by simp), h3, .inl (h4' rfl), h5⟩
  | _ => simp [may] at ha


structure Inv (s : St) : Prop where
  disc : ∀ w, D s w
  may : ∀ w, ∀ a ∈ s.prog w, may w a = true
  two : Inv2 s

theorem inv_start : Inv St.start := by
  refine ⟨fun w => by cases w <;> rfl, fun w => by cases w <;> simp [St.prog, St.start], ?_⟩
  exact ⟨.inl rfl, .inl rfl, fun _ => rfl, .inl rfl, rfl⟩

theorem call_disc (c : Call) : disc false false c.prog = true := by cases c <;> rfl

theorem call_app (c : Call) (up : Bool) : appOk up c.prog = true := by cases c <;> cases up <;> rfl

theorem call_may (c : Call) : ∀ a ∈ c.prog, may .app a = true := by
  have h : c.prog.all (may .app) = true := by cases c <;> rfl
  simpa using h

theorem msg_disc (m : Msg) : disc false false m.prog = true := by cases m <;> rfl

theorem msg_may (m : Msg) : ∀ a ∈ m.prog, may .net a = true := by
  have h : m.prog.all (may .net) = true := by cases m <;> rfl
  simpa using h

theorem handler_disc (m : Handler) : disc false false m.prog = true := by cases m <;> rfl

theorem handler_may (m : Handler) : ∀ a ∈ m.prog, may .mdns a = true := by
  have h : m.prog.all (may .mdns) = true := by cases m <;> rfl
  simpa using h

/-- An idle thread holds nothing. -/
theorem idle_disc (s : St) (w : Who) (h : D s w) (hp : s.prog w = []) (p : List Act) (hd : disc false false p = true) :
    disc (decide (s.ownGroup = some w)) (decide (s.ownFound = some w)) p = true := by
  unfold D at h
  rw [hp] at h
  simp only [disc, Bool.and_eq_true, Bool.not_eq_true'] at h
  rw [h.1, h.2]
  exact hd

theorem step_inv (s s' : St) (l : Label) (hl : l.Polite) (hi : Inv s) (h : step s l = some s') : Inv s' := by
  have hb := hi.two.bad
  unfold step at h
  rw [if_pos hb] at h
  cases l with
  | act w c =>
    simp only at h
    split at h
    · cases h
    · rename_i a r hp
      have hm := hi.may w a (by rw [hp]; simp)
      refine ⟨exec_disc w a r c s s' hp hi.disc h, exec_may w a r c s s' hp hl hi.may h, ?_⟩
      cases w with
      | app => exact exec_inv2_app a r c s s' hp hm hi.two h
      | net => exact exec_inv2_net a r c s s' hp hm hi.two h
      | mdns => exact exec_inv2_mdns a r c s s' hp hm hi.two h
  | call c =>
    simp only at h
    split at h <;> simp only [Option.some.injEq, reduceCtorEq] at h
    rename_i ha
    subst h
    obtain ⟨h1, h2, h3, h4, h5⟩ := hi.two
    refine ⟨?_, ?_, .inl (call_app c _), ?_, h3, .inl ?_, h5⟩
    · intro w
      cases w with
      | app => exact idle_disc s .app (hi.disc .app) ha _ (call_disc c)
      | net => exact hi.disc .net
      | mdns => exact hi.disc .mdns
    · intro w
      cases w with
      | app => exact call_may c
      | net => exact hi.may .net
      | mdns => exact hi.may .mdns
    · rcases h2 with e | e | ⟨-, q, e⟩
      · exact .inl e
      · exact .inr (.inl e)
      · rw [ha] at e; cases e
    · rcases h4 with e | ⟨-, e, -⟩
      · exact e
      · rw [ha] at e; cases e
  | message m =>
    simp only at h
    split at h <;> simp only [Option.some.injEq, reduceCtorEq] at h
    rename_i ha
    subst h
    obtain ⟨h1, h2, h3, h4, h5⟩ := hi.two
    refine ⟨?_, ?_, h1, h2, h3, h4, h5⟩
    · intro w
      cases w with
      | app => exact hi.disc .app
      | net => exact idle_disc s .net (hi.disc .net) ha.1 _ (msg_disc m)
      | mdns => exact hi.disc .mdns
    · intro w
      cases w with
      | app => exact hi.may .app
      | net => exact msg_may m
      | mdns => exact hi.may .mdns
  | timer =>
    simp only [Option.some.injEq] at h
    subst h
    obtain ⟨h1, h2, h3, h4, h5⟩ := hi.two
    refine ⟨?_, ?_, h1, h2, h3, ?_, h5⟩
    · intro w
      cases w with
      | app => exact hi.disc .app
      | net => exact hi.disc .net
      | mdns => exact hi.disc .mdns
    · intro w
      cases w with
      | app => exact hi.may .app
      | net => exact hi.may .net
      | mdns => exact hi.may .mdns
    · have : pending { s with queue := s.queue ++ [Handler.tick] } = pending s := by
        simp [pending, List.count_append, List.count_cons]
      rw [this]
      exact h4
  | take =>
    simp only at h
    split at h
    · rename_i q qs hq
      split at h <;> simp only [Option.some.injEq, reduceCtorEq] at h
      rename_i ha
      subst h
      obtain ⟨h1, h2, h3, h4, h5⟩ := hi.two
      refine ⟨?_, ?_, h1, h2, fun e => absurd ha.1 e, ?_, h5⟩
      · intro w
        cases w with
        | app => exact hi.disc .app
        | net => exact hi.disc .net
        | mdns => exact idle_disc s .mdns (hi.disc .mdns) ha.2 _ (handler_disc q)
      · intro w
        cases w with
        | app => exact hi.may .app
        | net => exact hi.may .net
        | mdns => exact handler_may q
      · have : pending { s with queue := qs, mdns := q.prog } = pending s := by
          simp only [pending, hq, ha.2]
          cases q <;> simp [Handler.prog, List.count_cons]
        rw [this]
        exact h4
    · cases h
  | finish =>
    simp only at h
    split at h <;> simp only [Option.some.injEq, reduceCtorEq] at h
    rename_i ha
    subst h
    obtain ⟨h1, h2, h3, h4, h5⟩ := hi.two
    have e : (s.life != .none) = true := by rw [ha.1]; rfl
    rw [e] at h1
    refine ⟨?_, ?_, h1, .inr (.inr ?_), fun _ => ha.2.1, h4, h5⟩
    · intro w
      cases w with
      | app => exact hi.disc .app
      | net => exact hi.disc .net
      | mdns => exact hi.disc .mdns
    · intro w
      cases w with
      | app => exact hi.may .app
      | net => exact hi.may .net
      | mdns => exact hi.may .mdns
    · rcases h2 with e | e | e
      · rw [ha.1] at e; cases e
      · rw [ha.2.2] at e; cases e.2
      · exact e
  | spurious => exact absurd hl (by simp [Label.Polite])

theorem run_inv (ls : List Label) (hl : ∀ l ∈ ls, l.Polite) (s s' : St) (hi : Inv s) (h : run s ls = some s') : Inv s' := by
  induction ls generalizing s with
  | nil => simp only [run, Option.some.injEq] at h; exact h ▸ hi
  | cons l ls ih =>
    simp only [run] at h
    split at h
    · rename_i s1 h1
      exact ih (fun l hl' => hl l (by simp [hl'])) s1 (step_inv s s1 l (hl l (by simp)) hi h1) h
    · cases h

end Verif.Sched
