import Verif.Sched.Progress

/-! # C71 Calls return, C73 Shared data; C22 for every schedule -/

namespace Verif.Sched

open Verif.Xchg Verif.Uuid

/-! ## C71 -/

/-- Whatever the schedule so far, left alone the threads come to rest after finitely many steps, and then the call has
returned, all messages are handled and the search is over; or the call is a `QueryLocalServices` that missed its
notification.  Nothing terminates the program. -/
theorem C71_rest_partial (ls : List Label) (hl : ∀ l ∈ ls, l.Polite) (s : St) (h : run St.start ls = some s) :
    s.bad = none ∧
    (¬∃ f : Nat → St, f 0 = s ∧ ∀ n, ∃ l : Label, l.Quiet ∧ step (f n) l = some (f (n + 1))) ∧
    ∀ ls' s', (∀ l ∈ ls', l.Polite) → run s ls' = some s' → Rests s' → (s'.app = [] ∨ Missed s') ∧ s'.net = [] ∧ s'.mdns = [] := by
  have hi := run_inv ls hl _ _ inv_start h
  refine ⟨hi.two.bad, ?_, ?_⟩
  · rintro ⟨f, -, hf⟩
    exact no_infinite f hf
  · intro ls' s' hl' hr hs
    exact rests_of s' (run_inv ls' hl' _ _ hi hr) hs

/-- No action that belongs to `QueryLocalServices` while connected. -/
def unasked : Act → Bool
  | .query | .wait | .blocked => false
  | _ => true

theorem step_unasked (s s' : St) (l : Label) (hl : l ≠ .call .query) (hp : l.Polite) (hi : Inv s)
    (ha : ∀ a ∈ s.app, unasked a = true) (h : step s l = some s') : ∀ a ∈ s'.app, unasked a = true := by
  have hb := hi.two.bad
  unfold step at h
  rw [if_pos hb] at h
  cases l with
  | act w c =>
    simp only at h
    split at h
    · cases h
    · rename_i a r hpr
      have hm := hi.may w a (by rw [hpr]; simp)
      cases w with
      | app =>
        simp only [St.prog] at hpr
        rw [hpr] at ha
        have h1 := ha a (by simp)
        have hr : ∀ b ∈ r, unasked b = true := fun b hb => ha b (List.mem_cons_of_mem _ hb)
        have hc : ∀ b p, unasked b = true → (∀ x ∈ p, unasked x = true) → ∀ x ∈ b :: p, unasked x = true := by
          intro b p hb hp x hx
          rcases List.mem_cons.1 hx with rfl | hx
          · exact hb
          · exact hp x hx
        cases a with
        | lock m =>
          simp only [exec] at h
          split at h <;> simp only [Option.some.injEq, reduceCtorEq] at h
          subst h
          cases m <;> exact hr
        | unlock m =>
          simp only [exec, Option.some.injEq] at h
          subst h
          cases m <;> exact hr
        | search =>
          simp only [exec, Option.some.injEq] at h
          subst h
          exact hc _ _ rfl (hc _ _ rfl (hc _ _ rfl hr))
        | targets =>
          simp only [exec, Option.some.injEq] at h
          subst h
          exact hc _ _ rfl (hc _ _ rfl hr)
        | init =>
          simp only [exec, Option.some.injEq] at h
          subst h
          refine hc _ _ rfl ?_
          cases s.initialised
          · exact hc _ _ rfl hr
          · exact hr
        | sending n =>
          simp only [exec, Option.some.injEq] at h
          subst h
          show ∀ b ∈ (if n = 0 then r else .sending (n - 1) :: r), unasked b = true
          split
          · exact hr
          · exact hc _ _ rfl hr
        | joinNet =>
          simp only [exec, reduceCtorEq, if_false] at h
          split at h <;> simp only [Option.some.injEq, reduceCtorEq] at h
          subst h
          exact hr
        | joinMdns =>
          simp only [exec] at h
          split at h <;> simp only [Option.some.injEq, reduceCtorEq] at h
          subst h
          exact hr
        | query | wait | blocked => simp [unasked] at h1
        | look _ _ | notify | callback => simp [may] at hm
        | _ =>
          simp only [exec, Option.some.injEq] at h
          subst h
          exact hr
      | net =>
        cases a with
        | lock m =>
          simp only [exec] at h
          split at h <;> simp only [Option.some.injEq, reduceCtorEq] at h
          subst h
          cases m <;> exact ha
        | unlock m =>
          simp only [exec, Option.some.injEq] at h
          subst h
          cases m <;> exact ha
        | look u why =>
          simp only [exec, Option.some.injEq] at h
          subst h
          cases why <;> cases singleMember u s.found <;> exact ha
        | put _ | push _ | drop | targets | get _ | callback | sending _ | post _ =>
          simp only [exec, Option.some.injEq] at h
          subst h
          exact ha
        | _ => simp [may] at hm
      | mdns =>
        cases a with
        | lock m =>
          simp only [exec] at h
          split at h <;> simp only [Option.some.injEq, reduceCtorEq] at h
          subst h
          cases m <;> exact ha
        | unlock m =>
          simp only [exec, Option.some.injEq] at h
          subst h
          cases m <;> exact ha
        | look u why =>
          simp only [exec, Option.some.injEq] at h
          subst h
          cases why <;> cases singleMember u s.found <;> exact ha
        | notify =>
          simp only [exec] at h
          split at h
          · split at h <;> simp only [Option.some.injEq] at h <;> subst h
            · rename_i p he
              rw [he] at ha
              exact fun b hb => ha b (List.mem_cons_of_mem _ hb)
            · exact ha
          · simp only [Option.some.injEq] at h
            subst h
            exact ha
        | store _ | search | push _ | arm =>
          simp only [exec, Option.some.injEq] at h
          subst h
          exact ha
        | _ => simp [may] at hm
  | call c =>
    simp only at h
    split at h <;> simp only [Option.some.injEq, reduceCtorEq] at h
    subst h
    have : c ≠ .query → c.prog.all unasked = true := by cases c <;> intro e <;> first | rfl | exact absurd rfl e
    have := this (fun e => hl (e ▸ rfl))
    simpa using this
  | message m =>
    simp only at h
    split at h <;> simp only [Option.some.injEq, reduceCtorEq] at h
    subst h
    exact ha
  | timer =>
    simp only [Option.some.injEq] at h
    subst h
    exact ha
  | take =>
    simp only at h
    split at h
    · split at h <;> simp only [Option.some.injEq, reduceCtorEq] at h
      subst h
      exact ha
    · cases h
  | finish =>
    simp only at h
    split at h <;> simp only [Option.some.injEq, reduceCtorEq] at h
    subst h
    exact ha
  | spurious => exact absurd hp (by simp [Label.Polite])

theorem run_unasked (ls : List Label) (hl : ∀ l ∈ ls, l ≠ .call .query ∧ l.Polite) (s s' : St) (hi : Inv s)
    (ha : ∀ a ∈ s.app, unasked a = true) (h : run s ls = some s') : ∀ a ∈ s'.app, unasked a = true := by
  induction ls generalizing s with
  | nil => simp only [run, Option.some.injEq] at h; exact h ▸ ha
  | cons l ls ih =>
    simp only [run] at h
    split at h
    · rename_i s1 h1
      have hll := hl l (by simp)
      exact ih (fun l hl' => hl l (by simp [hl'])) s1 (step_inv s s1 l hll.2 hi h1) (step_unasked s s1 l hll.1 hll.2 hi ha h1) h
    · cases h

/-- Without `QueryLocalServices` every call returns. -/
theorem C71_return_partial (ls : List Label) (hl : ∀ l ∈ ls, l ≠ .call .query ∧ l.Polite) (s : St) (h : run St.start ls = some s)
    (hr : Rests s) : s.app = [] ∧ s.net = [] ∧ s.mdns = [] := by
  have hi := run_inv ls (fun l h => (hl l h).2) _ _ inv_start h
  obtain ⟨h1, h2⟩ := rests_of s hi hr
  refine ⟨?_, h2⟩
  rcases h1 with e | ⟨⟨p, e⟩, -⟩
  · exact e
  · have := run_unasked ls hl _ _ inv_start (by simp [St.start]) h
    rcases e with e | e <;> rw [e] at this <;> simpa [unasked] using this _ (List.mem_cons_self ..)

/-- `Label.Polite`, decided. -/
def politeB : Label → Bool
  | .act _ c => c.user.all (· ≠ .leave)
  | .spurious => false
  | _ => true

theorem polite_of (ls : List Label) (h : ls.all politeB = true) : ∀ l ∈ ls, l.Polite := by
  intro l hl
  have := List.all_eq_true.1 h l hl
  cases l <;> simp_all [politeB, Label.Polite]

def noStations : Choice := ⟨[], []⟩

/-- `n` steps of one thread. -/
def go (w : Who) (n : Nat) : List Label := List.replicate n (.act w noStations)

/-- A first `ConnectToLocalService`, step by step. -/
def connected : List Label := .call (.connect "G".toList) :: go .app 30

/-- A run of the hypotheses: connect, a message joins while the search runs, then leave; everything comes to rest. -/
example : (∀ l ∈ connected, l ≠ .call .query ∧ l.Polite) ∧
    (match run St.start connected with
      | some s => s.app.isEmpty && s.netUp && s.life = .running && s.queue = [.tick]
      | none => false) = true := by
  refine ⟨?_, by decide +kernel⟩
  intro l hl
  simp only [connected, go, List.mem_cons, List.mem_replicate] at hl
  rcases hl with rfl | ⟨-, rfl⟩
  · exact ⟨by simp, trivial⟩
  · exact ⟨by simp, by simp [Label.Polite, noStations]⟩


/-- Beside the theorem: a message arrives and the search thread runs while the application leaves again. -/
def busy : List Label :=
  connected ++ [.message (.join (1, 2, 3, 4)), .take, .call .leave] ++ go .mdns 1 ++ go .net 2 ++ go .app 1

example : ∃ s, run St.start busy = some s ∧ s.app ≠ [] ∧ s.net ≠ [] ∧ s.mdns ≠ [] := by
  have h : (match run St.start busy with
      | some s => !s.app.isEmpty && !s.net.isEmpty && !s.mdns.isEmpty
      | none => false) = true := by decide +kernel
  split at h
  · rename_i s hs
    refine ⟨s, hs, ?_⟩
    simpa [and_assoc] using h
  · cases h

/-- `act` does nothing to the members of a stuck `QueryLocalServices`. -/
def dull : Act → Bool
  | .query | .notify | .post .query => false
  | _ => true

/-- A `QueryLocalServices` that waits although its search is over. -/
structure Stuck (s : St) : Prop where
  app : ∃ p, s.app = .wait :: p ∨ s.app = .blocked :: p
  queue : Handler.query ∉ s.queue
  net : ∀ a ∈ s.net, dull a = true
  mdns : ∀ a ∈ s.mdns, dull a = true

theorem dull_user (us : List User) : ∀ a ∈ us.flatMap User.prog, dull a = true := by
  intro a ha
  obtain ⟨u, -, hau⟩ := List.mem_flatMap.1 ha
  have : u.prog.all dull = true := by cases u <;> rfl
  exact List.all_eq_true.1 this a hau

theorem exec_dull (w : Who) (a : Act) (r : List Act) (c : Choice) (s s' : St) (hw : w ≠ .app)
    (ha : dull a = true) (hr : ∀ b ∈ r, dull b = true) (hq : Handler.query ∉ s.queue) (h : exec w a r c s = some s') :
    (∀ b ∈ s'.prog w, dull b = true) ∧ (∀ v, v ≠ w → s'.prog v = s.prog v) ∧ Handler.query ∉ s'.queue ∨ s'.bad ≠ none ∧ s'.app = s.app := by
  have hc : ∀ b p, dull b = true → (∀ x ∈ p, dull x = true) → ∀ x ∈ b :: p, dull x = true := by
    intro b p hb hp x hx
    rcases List.mem_cons.1 hx with rfl | hx
    · exact hb
    · exact hp x hx
  have set : ∀ (x : St) (p : List Act), (∀ v, x.prog v = s.prog v) → Handler.query ∉ x.queue → (∀ b ∈ p, dull b = true) →
      (∀ b ∈ (x.setProg w p).prog w, dull b = true) ∧ (∀ v, v ≠ w → (x.setProg w p).prog v = s.prog v) ∧
        Handler.query ∉ (x.setProg w p).queue := by
    intro x p hx hq hp
    refine ⟨?_, ?_, ?_⟩
    · rw [setProg_prog, if_pos rfl]; exact hp
    · intro v hv
      rw [setProg_prog, if_neg hv]; exact hx v
    · cases w <;> exact hq
  cases a with
  | lock m =>
    simp only [exec] at h
    split at h <;> simp only [Option.some.injEq, reduceCtorEq] at h
    subst h
    exact .inl (set _ _ (fun v => by cases m <;> cases v <;> rfl) (by cases m <;> exact hq) hr)
  | unlock m =>
    simp only [exec, Option.some.injEq] at h
    subst h
    exact .inl (set _ _ (fun v => by cases m <;> cases v <;> rfl) (by cases m <;> exact hq) hr)
  | search =>
    simp only [exec, Option.some.injEq] at h
    subst h
    exact .inl (set _ _ (fun _ => rfl) hq (hc _ _ rfl (hc _ _ rfl (hc _ _ rfl hr))))
  | look u why =>
    simp only [exec, Option.some.injEq] at h
    subst h
    cases hf : singleMember u s.found <;> cases why <;> refine .inl (set _ _ (fun _ => rfl) hq ?_) <;>
      first
        | exact hc _ _ rfl hr
        | exact hc _ _ rfl (hc _ _ rfl hr)
        | exact hc _ _ rfl (hc _ _ rfl (hc _ _ rfl (hc _ _ rfl hr)))
  | init =>
    simp only [exec, Option.some.injEq] at h
    subst h
    refine .inl (set _ _ (fun _ => rfl) hq (hc _ _ rfl ?_))
    split
    · exact hr
    · exact hc _ _ rfl hr
  | targets =>
    simp only [exec, Option.some.injEq] at h
    subst h
    exact .inl (set _ _ (fun _ => rfl) hq (hc _ _ rfl (hc _ _ rfl hr)))
  | sending n =>
    simp only [exec, Option.some.injEq] at h
    subst h
    refine .inl (set _ _ (fun _ => rfl) hq ?_)
    split
    · exact hr
    · exact hc _ _ rfl hr
  | post q =>
    simp only [exec, Option.some.injEq] at h
    subst h
    refine .inl (set _ _ (fun v => by cases v <;> rfl) ?_ hr)
    cases q <;> simp_all [dull]
  | query | notify => simp [dull] at ha
  | wait =>
    simp only [exec, Option.some.injEq] at h
    subst h
    exact .inl (set _ _ (fun _ => rfl) hq (hc _ _ rfl hr))
  | blocked => simp [exec] at h
  | joinNet =>
    simp only [exec] at h
    split at h
    · simp only [Option.some.injEq] at h
      subst h
      exact .inr ⟨by simp, rfl⟩
    · split at h <;> simp only [Option.some.injEq, reduceCtorEq] at h
      subst h
      exact .inl (set _ _ (fun v => by cases v <;> rfl) hq hr)
  | joinMdns =>
    simp only [exec] at h
    split at h <;> simp only [Option.some.injEq, reduceCtorEq] at h
    subst h
    exact .inl (set _ _ (fun v => by cases v <;> rfl) hq hr)
  | start =>
    simp only [exec, Option.some.injEq] at h
    subst h
    exact .inl (set _ _ (fun v => by cases v <;> rfl) (by simp [hq]) hr)
  | callback =>
    simp only [exec, Option.some.injEq] at h
    subst h
    refine .inl (set _ _ (fun _ => rfl) hq ?_)
    intro b hb
    rcases List.mem_append.1 hb with hb | hb
    · exact dull_user _ b hb
    · exact hr b hb
  | _ =>
    simp only [exec, Option.some.injEq] at h
    subst h
    exact .inl (set _ _ (fun v => by cases v <;> rfl) hq hr)

theorem step_stuck (s s' : St) (l : Label) (hl : l ≠ .spurious) (hs : Stuck s) (h : step s l = some s') :
    Stuck s' ∨ s'.bad ≠ none ∧ s'.app ≠ [] := by
  obtain ⟨⟨p, hp⟩, hq, hn, hm⟩ := hs
  have hne : s.app ≠ [] := by rcases hp with e | e <;> rw [e] <;> simp
  unfold step at h
  split at h
  · cases l with
    | act w c =>
      simp only at h
      split at h
      · cases h
      · rename_i a r hpr
        cases w with
        | app =>
          simp only [St.prog] at hpr
          rcases hp with e | e <;> rw [e] at hpr <;> cases hpr
          · simp only [exec, Option.some.injEq] at h
            subst h
            exact .inl ⟨⟨p, .inr rfl⟩, hq, hn, hm⟩
          · simp [exec] at h
        | net =>
          simp only [St.prog] at hpr
          rw [hpr] at hn
          rcases exec_dull .net a r c s s' (by simp) (hn a (by simp)) (fun b hb => hn b (by simp [hb])) hq h with ⟨h1, h2, h3⟩ | ⟨h1, h2⟩
          · have e1 := h2 .app (by simp)
            have e2 := h2 .mdns (by simp)
            simp only [St.prog] at e1 e2 h1
            exact .inl ⟨⟨p, by rw [e1]; exact hp⟩, h3, h1, by rw [e2]; exact hm⟩
          · exact .inr ⟨h1, by rw [h2]; exact hne⟩
        | mdns =>
          simp only [St.prog] at hpr
          rw [hpr] at hm
          rcases exec_dull .mdns a r c s s' (by simp) (hm a (by simp)) (fun b hb => hm b (by simp [hb])) hq h with ⟨h1, h2, h3⟩ | ⟨h1, h2⟩
          · have e1 := h2 .app (by simp)
            have e2 := h2 .net (by simp)
            simp only [St.prog] at e1 e2 h1
            exact .inl ⟨⟨p, by rw [e1]; exact hp⟩, h3, by rw [e2]; exact hn, h1⟩
          · exact .inr ⟨h1, by rw [h2]; exact hne⟩
    | call c =>
      simp only [hne, if_false, reduceCtorEq] at h
    | message m =>
      simp only at h
      split at h <;> simp only [Option.some.injEq, reduceCtorEq] at h
      subst h
      refine .inl ⟨⟨p, hp⟩, hq, ?_, hm⟩
      have : m.prog.all dull = true := by cases m <;> rfl
      simpa using this
    | timer =>
      simp only [Option.some.injEq] at h
      subst h
      exact .inl ⟨⟨p, hp⟩, by simp [hq], hn, hm⟩
    | take =>
      simp only at h
      split at h
      · rename_i x xs hx
        split at h <;> simp only [Option.some.injEq, reduceCtorEq] at h
        subst h
        rw [hx] at hq
        refine .inl ⟨⟨p, hp⟩, fun e => hq (List.mem_cons_of_mem _ e), hn, ?_⟩
        have : x ≠ .query → x.prog.all dull = true := by cases x <;> intro e <;> first | rfl | exact absurd rfl e
        have := this (fun e => hq (e ▸ List.mem_cons_self ..))
        simpa using this
      · cases h
    | finish =>
      simp only at h
      split at h <;> simp only [Option.some.injEq, reduceCtorEq] at h
      subst h
      exact .inl ⟨⟨p, hp⟩, hq, hn, hm⟩
    | spurious => exact absurd rfl hl
  · cases h

theorem run_stuck (ls : List Label) (hl : ∀ l ∈ ls, l ≠ .spurious) (s s' : St) (hs : Stuck s ∨ s.bad ≠ none ∧ s.app ≠ [])
    (h : run s ls = some s') : s'.app ≠ [] := by
  induction ls generalizing s with
  | nil =>
    simp only [run, Option.some.injEq] at h
    subst h
    rcases hs with ⟨⟨p, hp⟩, -⟩ | ⟨-, e⟩
    · rcases hp with e | e <;> rw [e] <;> simp
    · exact e
  | cons l ls ih =>
    simp only [run] at h
    split at h
    · rename_i s1 h1
      refine ih (fun l hl' => hl l (by simp [hl'])) s1 ?_ h
      rcases hs with hs | ⟨hb, -⟩
      · exact step_stuck s s1 l (hl l (by simp)) hs h1
      · unfold step at h1
        rw [if_neg hb] at h1
        cases h1
    · cases h

/-- The call that misses its notification never returns: whatever happens later, unless the condition variable wakes up by
itself. -/
theorem C71_missed_violated (ls : List Label) (hl : ∀ l ∈ ls, l.Polite) (s : St) (h : run St.start ls = some s) (hm : Missed s)
    (ls' : List Label) (hl' : ∀ l ∈ ls', l ≠ .spurious) (s' : St) (h' : run s ls' = some s') : s'.app ≠ [] := by
  have hi := run_inv ls hl _ _ inv_start h
  refine run_stuck ls' hl' s s' (.inl ⟨hm.1, hm.2.1, ?_, ?_⟩) h'
  · intro a ha
    have := hi.may .net a ha
    cases a with
    | query | notify => simp [may] at this
    | post q => cases q <;> first | rfl | simp [may] at this
    | _ => rfl
  · intro a ha
    have := hi.may .mdns a ha
    cases a with
    | notify => exact absurd ha hm.2.2
    | query | post q => simp [may] at this
    | _ => rfl

/-- Connected; then `QueryLocalServices`, and the search thread does the search before the caller waits. -/
def lost : List Label := connected ++ [.call .query] ++ go .app 1 ++ [.take] ++ go .mdns 5 ++ [.take] ++ go .mdns 5

/-- **Violation.** There is such a schedule. -/
theorem C71_lost_violated : ∃ ls s, (∀ l ∈ ls, l.Polite) ∧ run St.start ls = some s ∧ Missed s := by
  have h : (match run St.start lost with
      | some s => (match s.app with | .wait :: _ => true | _ => false) && s.queue.isEmpty && s.mdns.isEmpty
      | none => false) = true := by decide +kernel
  split at h
  · rename_i s hs
    simp only [Bool.and_eq_true, List.isEmpty_iff] at h
    refine ⟨lost, s, ?_, hs, ?_, by simp [h.1.2], by simp [h.2]⟩
    · exact polite_of _ (by decide +kernel)
    · have := h.1.1
      split at this
      · rename_i p hp
        exact ⟨p, .inl hp⟩
      · cases this
  · cases h


/-- **Violation.** A condition variable may wake up by itself; then `QueryLocalServices` returns before its search is over,
and the search thread notifies a condition variable that is gone. -/
theorem C71_spurious_violated : ∃ ls s, run St.start ls = some s ∧ s.bad = some .undefined := by
  have h : (match run St.start (connected ++ [.call .query] ++ go .app 2 ++ [.spurious, .take] ++ go .mdns 5 ++ [.take] ++ go .mdns 5) with
      | some s => s.bad == some .undefined
      | none => false) = true := by decide +kernel
  split at h
  · rename_i s hs
    exact ⟨_, s, hs, by simpa using h⟩
  · cases h

/-- **Violation.** A callback that leaves the service, or connects to another one, ends the program. -/
theorem C71_callback_violated (s : St) (r : List Act) (c c' c'' : Choice) (hb : s.bad = none) (hn : s.net = .callback :: r)
    (hc : c.user = [.leave]) :
    ∃ s', run s [.act .net c, .act .net c', .act .net c''] = some s' ∧ s'.bad = some .terminated := by
  simp only [run, step, hb, if_true, St.prog, hn, exec, hc, List.flatMap_cons, List.flatMap_nil, User.prog, leaveProg, tcpStopProg,
    St.setProg, List.cons_append, List.nil_append]
  exact ⟨_, rfl, rfl⟩

/-- Every incoming message gets to its callback. -/
example : ∃ s, run St.start (connected ++ [.message .other]) = some s ∧ s.net = [.callback] ∧ s.bad = none := by
  have h : (match run St.start (connected ++ [.message .other]) with
      | some s => (match s.net with | [.callback] => true | _ => false) && s.bad == none
      | none => false) = true := by decide +kernel
  split at h
  · rename_i s hs
    simp only [Bool.and_eq_true, beq_iff_eq] at h
    refine ⟨s, hs, ?_, h.2⟩
    have := h.1
    split at this
    · rename_i e; exact e
    · cases this
  · cases h

/-! ## C73 -/

theorem writes_group (a : Act) (r : List Act) (g f : Bool) (h : Shared.group ∈ a.writes ∨ Shared.group ∈ a.reads)
    (hd : disc g f (a :: r) = true) : g = true := by
  cases a <;> simp [Act.writes, Act.reads] at h <;> simp [disc] at hd <;> simp [hd]

theorem writes_found (a : Act) (r : List Act) (g f : Bool) (h : Shared.found ∈ a.writes ∨ Shared.found ∈ a.reads)
    (hd : disc g f (a :: r) = true) : f = true := by
  cases a <;> simp [Act.writes, Act.reads] at h <;> simp [disc] at hd <;> simp [hd]

/-- Whatever the schedule, no two threads touch the group, the list of stations or our announcements at the same time, one
of them changing it. -/
theorem C73_shared_partial (ls : List Label) (hl : ∀ l ∈ ls, l.Polite) (s : St) (h : run St.start ls = some s) :
    ¬Race s .group ∧ ¬Race s .found ∧ ¬Race s .announced := by
  have hi := run_inv ls hl _ _ inv_start h
  refine ⟨?_, ?_, ?_⟩
  · rintro ⟨v, w, a, b, p, q, hvw, hv, hw, ha, hb⟩
    have d1 := hi.disc v
    have d2 := hi.disc w
    unfold D at d1 d2
    rw [hv] at d1
    rw [hw] at d2
    have e1 := of_decide_eq_true (writes_group a p _ _ (.inl ha) d1)
    have e2 := of_decide_eq_true (writes_group b q _ _ hb d2)
    rw [e1] at e2
    exact hvw (Option.some.inj e2)
  · rintro ⟨v, w, a, b, p, q, hvw, hv, hw, ha, hb⟩
    have d1 := hi.disc v
    have d2 := hi.disc w
    unfold D at d1 d2
    rw [hv] at d1
    rw [hw] at d2
    have e1 := of_decide_eq_true (writes_found a p _ _ (.inl ha) d1)
    have e2 := of_decide_eq_true (writes_found b q _ _ hb d2)
    rw [e1] at e2
    exact hvw (Option.some.inj e2)
  · rintro ⟨v, w, a, b, p, q, hvw, hv, hw, ha, hb⟩
    have m1 := hi.may v a (by rw [hv]; simp)
    have m2 := hi.may w b (by rw [hw]; simp)
    have hva : v = .app := by
      cases a <;> simp [Act.writes] at ha <;> cases v <;> simp [may] at m1 <;> rfl
    subst hva
    have hwm : w = .mdns := by
      cases w with
      | app => exact absurd rfl hvw
      | net => cases b <;> simp [Act.writes, Act.reads] at hb <;> simp [may] at m2
      | mdns => rfl
    subst hwm
    have hlife : s.life = .none := by
      simp only [St.prog] at hv
      rcases hi.two.app with e | ⟨-, x, e, -⟩
      · rw [hv] at e
        cases a <;> simp [Act.writes] at ha <;> simp [appOk] at e <;> exact e.1
      · rw [hv] at e
        cases e
        simp [Act.writes] at ha
    have := hi.two.idle (by rw [hlife]; simp)
    simp only [St.prog] at hw
    rw [this] at hw
    cases hw

/-- **Violation.** `OnMessage` during a connection changes the callback while a message may be using it. -/
theorem C73_callback_violated : ∃ ls s, (∀ l ∈ ls, l.Polite) ∧ run St.start ls = some s ∧ Race s .callback := by
  have h : (match run St.start (connected ++ [.message .other, .call .onMessage]) with
      | some s => (match s.net with | [.callback] => true | _ => false) && (match s.app with | [.setCallback] => true | _ => false)
      | none => false) = true := by decide +kernel
  split at h
  · rename_i s hs
    simp only [Bool.and_eq_true] at h
    refine ⟨_, s, polite_of _ (by decide +kernel), hs, .app, .net, .setCallback, .callback, [], [], by simp, ?_, ?_, ?_, ?_⟩
    · have := h.2
      split at this
      · rename_i e; exact e
      · cases this
    · have := h.1
      split at this
      · rename_i e; exact e
      · cases this
    · simp [Act.writes]
    · simp [Act.reads]
  · cases h

end Verif.Sched
