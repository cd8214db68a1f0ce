import Verif.Sched.Props

/-!
# C76: after leaving

When `LeaveLocalService` has begun to stop the server no further message is handled, and when it has returned nothing
happens in the other threads any more, until the application connects again.
-/

namespace Verif.Sched

open Verif.Xchg Verif.Uuid

/-- A thread other than the application's leaves the state of the server and of the search thread alone. -/
theorem exec_other {w : Who} {a : Act} {r : List Act} {c : Choice} {s s' : St} (hw : w ≠ .app)
    (ha : may w a = true) (h : exec w a r c s = some s') :
    s'.netUp = s.netUp ∧ s'.halted = s.halted ∧ s'.life = s.life ∧ (w = .mdns → s'.net = s.net) ∧
      (s'.app = s.app ∨ ∃ p, s.app = .blocked :: p ∧ s'.app = p) := by
  cases w with
  | app => exact absurd rfl hw
  | net =>
    cases a with
    | lock m =>
      simp only [exec] at h
      split at h <;> simp only [Option.some.injEq, reduceCtorEq] at h
      subst h
      cases m <;> exact ⟨rfl, rfl, rfl, nofun, .inl rfl⟩
    | unlock m =>
      simp only [exec, Option.some.injEq] at h
      subst h
      cases m <;> exact ⟨rfl, rfl, rfl, nofun, .inl rfl⟩
    | look u why =>
      simp only [exec, Option.some.injEq] at h
      subst h
      cases why <;> cases singleMember u s.found <;> exact ⟨rfl, rfl, rfl, nofun, .inl rfl⟩
    | post _ | put _ | push _ | drop | targets | get _ | callback | sending _ =>
      simp only [exec, Option.some.injEq] at h
      subst h
      exact ⟨rfl, rfl, rfl, nofun, .inl rfl⟩
    | _ => simp [may] at ha
  | mdns =>
    cases a with
    | lock m =>
      simp only [exec] at h
      split at h <;> simp only [Option.some.injEq, reduceCtorEq] at h
      subst h
      cases m <;> exact ⟨rfl, rfl, rfl, fun _ => rfl, .inl rfl⟩
    | unlock m =>
      simp only [exec, Option.some.injEq] at h
      subst h
      cases m <;> exact ⟨rfl, rfl, rfl, fun _ => rfl, .inl rfl⟩
    | look u why =>
      simp only [exec, Option.some.injEq] at h
      subst h
      cases why <;> cases singleMember u s.found <;> exact ⟨rfl, rfl, rfl, fun _ => rfl, .inl rfl⟩
    | notify =>
      simp only [exec] at h
      split at h
      · split at h
        · rename_i p hp
          simp only [Option.some.injEq] at h
          subst h
          exact ⟨rfl, rfl, rfl, fun _ => rfl, .inr ⟨p, hp, rfl⟩⟩
        · simp only [Option.some.injEq] at h
          subst h
          exact ⟨rfl, rfl, rfl, fun _ => rfl, .inl rfl⟩
      · simp only [Option.some.injEq] at h
        subst h
        exact ⟨rfl, rfl, rfl, fun _ => rfl, .inl rfl⟩
    | search | store _ | push _ | arm =>
      simp only [exec, Option.some.injEq] at h
      subst h
      exact ⟨rfl, rfl, rfl, fun _ => rfl, .inl rfl⟩
    | _ => simp [may] at ha

/-- The actions that start and stop the other threads. -/
def key : Act → Bool
  | .listen | .start | .halt | .joinNet | .joinMdns => true
  | _ => false

/-- What an action of the application thread other than starting does to the other threads. -/
theorem exec_app {a : Act} {r : List Act} {c : Choice} {s s' : St} (ha : may .app a = true) (h1 : a ≠ .listen)
    (h2 : a ≠ .start) (h : exec .app a r c s = some s') :
    (∀ x, key x = true → (x ∈ s'.app ↔ x ∈ r)) ∧ s'.net = s.net ∧ (a = .halt → s'.halted = true) ∧
      (a = .joinNet → s.net = [] ∧ s'.netUp = false) ∧ (a = .joinMdns → s'.life = .none) ∧
      (a ≠ .halt → a ≠ .joinNet → s'.halted = s.halted) ∧ (a ≠ .joinNet → s'.netUp = s.netUp) ∧
      (a ≠ .joinMdns → s'.life = s.life) := by
  have hk : ∀ {x y : Act}, key x = true → key y = false → x ≠ y := by
    intro x y hx hy e; rw [e, hy] at hx; cases hx
  cases a with
  | lock m =>
    simp only [exec] at h
    split at h <;> simp only [Option.some.injEq, reduceCtorEq] at h
    subst h
    cases m <;> exact ⟨fun _ _ => .rfl, rfl, nofun, nofun, nofun, fun _ _ => rfl, fun _ => rfl, fun _ => rfl⟩
  | unlock m =>
    simp only [exec, Option.some.injEq] at h
    subst h
    cases m <;> exact ⟨fun _ _ => .rfl, rfl, nofun, nofun, nofun, fun _ _ => rfl, fun _ => rfl, fun _ => rfl⟩
  | search =>
    simp only [exec, Option.some.injEq] at h
    subst h
    refine ⟨fun x hx => ?_, rfl, nofun, nofun, nofun, fun _ _ => rfl, fun _ => rfl, fun _ => rfl⟩
    have e1 := hk hx (y := .lock .found) rfl
    have e2 := hk hx (y := .store c.found) rfl
    have e3 := hk hx (y := .unlock .found) rfl
    simp [St.setProg, e1, e2, e3]
  | init =>
    simp only [exec, Option.some.injEq] at h
    subst h
    refine ⟨fun x hx => ?_, rfl, nofun, nofun, nofun, fun _ _ => rfl, fun _ => rfl, fun _ => rfl⟩
    have e1 := hk hx (y := .unlock .found) rfl
    have e2 := hk hx (y := .search) rfl
    cases s.initialised <;> simp [St.setProg, e1, e2]
  | targets =>
    simp only [exec, Option.some.injEq] at h
    subst h
    refine ⟨fun x hx => ?_, rfl, nofun, nofun, nofun, fun _ _ => rfl, fun _ => rfl, fun _ => rfl⟩
    have e1 := hk hx (y := .unlock .group) rfl
    have e2 := hk hx (y := .sending (Xchg.targets s.group []).length) rfl
    simp [St.setProg, e1, e2]
  | sending n =>
    simp only [exec, Option.some.injEq] at h
    subst h
    refine ⟨fun x hx => ?_, rfl, nofun, nofun, nofun, fun _ _ => rfl, fun _ => rfl, fun _ => rfl⟩
    have e1 := hk hx (y := .sending (n - 1)) rfl
    by_cases e : n = 0 <;> simp [St.setProg, e1, e]
  | query =>
    simp only [exec, Option.some.injEq] at h
    subst h
    split
    · refine ⟨fun x hx => ?_, rfl, nofun, nofun, nofun, fun _ _ => rfl, fun _ => rfl, fun _ => rfl⟩
      have e1 := hk hx (y := .search) rfl
      simp [St.setProg, e1]
    · refine ⟨fun x hx => ?_, rfl, nofun, nofun, nofun, fun _ _ => rfl, fun _ => rfl, fun _ => rfl⟩
      have e1 := hk hx (y := .wait) rfl
      simp [St.setProg, e1]
  | wait =>
    simp only [exec, Option.some.injEq] at h
    subst h
    refine ⟨fun x hx => ?_, rfl, nofun, nofun, nofun, fun _ _ => rfl, fun _ => rfl, fun _ => rfl⟩
    have e1 := hk hx (y := .blocked) rfl
    simp [St.setProg, e1]
  | blocked => simp [exec] at h
  | joinNet =>
    simp only [exec] at h
    split at h
    · rename_i e; cases e
    · split at h
      · rename_i e
        simp only [Option.some.injEq] at h
        subst h
        exact ⟨fun _ _ => .rfl, rfl, nofun, fun _ => ⟨e, rfl⟩, nofun, fun _ e => absurd rfl e, fun e => absurd rfl e,
          fun _ => rfl⟩
      · cases h
  | joinMdns =>
    simp only [exec] at h
    split at h
    · cases h
    · simp only [Option.some.injEq] at h
      subst h
      exact ⟨fun _ _ => .rfl, rfl, nofun, nofun, fun _ => rfl, fun _ _ => rfl, fun _ => rfl, fun e => absurd rfl e⟩
  | listen => exact absurd rfl h1
  | start => exact absurd rfl h2
  | halt =>
    simp only [exec, Option.some.injEq] at h
    subst h
    exact ⟨fun _ _ => .rfl, rfl, fun _ => rfl, nofun, nofun, fun e => absurd rfl e, fun _ => rfl, fun _ => rfl⟩
  | store _ | members _ | get _ | stop | announce | silence | setCallback =>
    simp only [exec, Option.some.injEq] at h
    subst h
    exact ⟨fun _ _ => .rfl, rfl, nofun, nofun, nofun, fun _ _ => rfl, fun _ => rfl, fun _ => rfl⟩
  | _ => simp [may] at ha

/-- From the call of `LeaveLocalService` on; `b`: stopping may still be ahead. -/
structure Leaving (b : Bool) (s : St) : Prop where
  inv : Inv s
  listen : Act.listen ∉ s.app
  start : Act.start ∉ s.app
  halt : (b = true ∧ Act.halt ∈ s.app) ∨ s.halted = true ∨ s.netUp = false
  net : Act.joinNet ∈ s.app ∨ s.net = [] ∧ s.netUp = false
  mdns : Act.joinMdns ∈ s.app ∨ s.life = .none

theorem leaving_act {b : Bool} {s s' : St} {w : Who} {c : Choice} (hl : (Label.act w c).Polite) (hi : Leaving b s)
    (h : step s (.act w c) = some s') : Leaving b s' := by
  have hv := step_inv s s' _ hl hi.inv h
  obtain ⟨hinv, h1, h2, h3, h4, h5⟩ := hi
  unfold step at h
  rw [if_pos hinv.two.bad] at h
  cases w with
  | app =>
    cases e : s.app with
    | nil => simp [St.prog, e] at h
    | cons a r =>
      simp only [St.prog, e] at h
      rw [e] at h1 h2 h3 h4 h5
      simp only [List.mem_cons, not_or] at h1 h2
      have ha := hinv.may .app a (by simp [St.prog, e])
      obtain ⟨k, k1, k2, k3, k4, k5, k6, k7⟩ := exec_app ha (Ne.symm h1.1) (Ne.symm h2.1) h
      refine ⟨hv, ?_, ?_, ?_, ?_, ?_⟩
      · rw [k _ rfl]; exact h1.2
      · rw [k _ rfl]; exact h2.2
      · rw [k _ rfl]
        by_cases e1 : a = .halt
        · exact .inr (.inl (k2 e1))
        · by_cases e2 : a = .joinNet
          · exact .inr (.inr (k3 e2).2)
          · rw [k5 e1 e2, k6 e2]
            rcases h3 with ⟨hb, hm⟩ | h3
            · rcases List.mem_cons.1 hm with hm | hm
              · exact absurd hm.symm e1
              · exact .inl ⟨hb, hm⟩
            · exact .inr h3
      · rw [k _ rfl, k1]
        by_cases e2 : a = .joinNet
        · exact .inr (k3 e2)
        · rw [k6 e2]
          rcases h4 with hm | h4
          · rcases List.mem_cons.1 hm with hm | hm
            · exact absurd hm.symm e2
            · exact .inl hm
          · exact .inr h4
      · rw [k _ rfl]
        by_cases e2 : a = .joinMdns
        · exact .inr (k4 e2)
        · rw [k7 e2]
          rcases h5 with hm | h5
          · rcases List.mem_cons.1 hm with hm | hm
            · exact absurd hm.symm e2
            · exact .inl hm
          · exact .inr h5
  | net | mdns =>
    simp only at h
    split at h
    · cases h
    · rename_i a r e
      have ha := hinv.may _ a (by rw [e]; simp)
      obtain ⟨k1, k2, k3, k4, k5⟩ := exec_other (by simp) ha h
      have k : ∀ x, key x = true → (x ∈ s'.app ↔ x ∈ s.app) := by
        intro x hx
        rcases k5 with k5 | ⟨p, k5, k6⟩
        · rw [k5]
        · rw [k5, k6]
          have : x ≠ .blocked := by rintro rfl; cases hx
          simp [this]
      refine ⟨hv, ?_, ?_, ?_, ?_, ?_⟩
      · rw [k _ rfl]; exact h1
      · rw [k _ rfl]; exact h2
      · rw [k _ rfl, k1, k2]; exact h3
      · rw [k _ rfl, k1]
        first
          | rw [k4 rfl]; exact h4
          | rcases h4 with h4 | h4
            · exact .inl h4
            · simp only [St.prog] at e; rw [h4.1] at e; cases e
      · rw [k _ rfl, k3]; exact h5

theorem leaving_step {b : Bool} {s s' : St} {l : Label} (hl : l.Polite) (hc : ¬ l.Connects) (hi : Leaving b s)
    (h : step s l = some s') : Leaving b s' := by
  cases l with
  | act w c => exact leaving_act hl hi h
  | call c =>
    have hv := step_inv s s' _ hl hi.inv h
    obtain ⟨hinv, h1, h2, h3, h4, h5⟩ := hi
    unfold step at h
    rw [if_pos hinv.two.bad] at h
    simp only at h
    split at h
    · rename_i e
      rw [e] at h3 h4 h5
      simp only [List.not_mem_nil, and_false, false_or] at h3 h4 h5
      simp only [Option.some.injEq] at h
      subst h
      refine ⟨hv, ?_, ?_, .inr h3, .inr h4, .inr h5⟩ <;>
        · show _ ∉ c.prog
          cases c <;> first | exact absurd trivial hc | simp [Call.prog, leaveProg, queryProg, getProg, sendProg, tcpStopProg, mdnsStopProg]
    · cases h
  | message m =>
    have hv := step_inv s s' _ hl hi.inv h
    obtain ⟨hinv, h1, h2, h3, h4, h5⟩ := hi
    unfold step at h
    rw [if_pos hinv.two.bad] at h
    simp only at h
    split at h
    · rename_i e
      simp only [Option.some.injEq] at h
      subst h
      refine ⟨hv, h1, h2, h3, ?_, h5⟩
      rcases h4 with h4 | h4
      · exact .inl h4
      · rw [h4.2] at e; exact absurd e.2.1 (by simp)
    · cases h
  | timer =>
    have hv := step_inv s s' _ hl hi.inv h
    obtain ⟨hinv, h1, h2, h3, h4, h5⟩ := hi
    unfold step at h
    rw [if_pos hinv.two.bad] at h
    simp only [Option.some.injEq] at h
    subst h
    exact ⟨hv, h1, h2, h3, h4, h5⟩
  | take =>
    have hv := step_inv s s' _ hl hi.inv h
    obtain ⟨hinv, h1, h2, h3, h4, h5⟩ := hi
    unfold step at h
    rw [if_pos hinv.two.bad] at h
    simp only at h
    split at h
    · split at h
      · simp only [Option.some.injEq] at h
        subst h
        exact ⟨hv, h1, h2, h3, h4, h5⟩
      · cases h
    · cases h
  | finish =>
    have hv := step_inv s s' _ hl hi.inv h
    obtain ⟨hinv, h1, h2, h3, h4, h5⟩ := hi
    unfold step at h
    rw [if_pos hinv.two.bad] at h
    simp only at h
    split at h
    · rename_i e
      simp only [Option.some.injEq] at h
      subst h
      refine ⟨hv, h1, h2, h3, h4, ?_⟩
      rcases h5 with h5 | h5
      · exact .inl h5
      · rw [h5] at e; cases e.1
    · cases h
  | spurious => exact absurd hl (by simp [Label.Polite])

theorem leaving_run {b : Bool} : ∀ (ls : List Label) {s s' : St}, (∀ l ∈ ls, l.Polite) → (∀ l ∈ ls, ¬ l.Connects) →
    Leaving b s → run s ls = some s' → Leaving b s'
  | [], s, s', _, _, hi, h => by simp only [run, Option.some.injEq] at h; exact h ▸ hi
  | l :: ls, s, s', hp, hc, hi, h => by
    simp only [run] at h
    split at h
    · rename_i s1 h1
      exact leaving_run ls (fun l hl => hp l (by simp [hl])) (fun l hl => hc l (by simp [hl]))
        (leaving_step (hp l (by simp)) (hc l (by simp)) hi h1) h
    · cases h

theorem run_append' (l1 : List Label) : ∀ (l2 : List Label) (s s' : St), run s (l1 ++ l2) = some s' →
    ∃ s1, run s l1 = some s1 ∧ run s1 l2 = some s' := by
  induction l1 with
  | nil => intro l2 s s' h; exact ⟨s, rfl, h⟩
  | cons l t ih =>
    intro l2 s s' h
    rw [List.cons_append, run] at h
    rw [run]
    split at h
    · rename_i s0 h0
      obtain ⟨s1, h1, h2⟩ := ih l2 s0 s' h
      exact ⟨s1, h1, h2⟩
    · cases h

theorem call_leave {s s' : St} (hi : Inv s) (h : step s (.call .leave) = some s') : Leaving true s' ∧ s'.app = leaveProg := by
  have hv := step_inv s s' (.call .leave) trivial hi h
  unfold step at h
  rw [if_pos hi.two.bad] at h
  simp only at h
  split at h
  · simp only [Option.some.injEq] at h
    subst h
    refine ⟨⟨hv, ?_, ?_, .inl ⟨rfl, ?_⟩, .inl ?_, .inl ?_⟩, rfl⟩ <;>
      simp [Call.prog, leaveProg, sendProg, tcpStopProg, mdnsStopProg]
  · cases h

/-- Nothing but the application thread changes what it has to do, as long as it does not wait. -/
theorem app_kept : ∀ (ls : List Label) {s s' : St} {a : Act} {r : List Act}, (∀ l ∈ ls, l.Polite) → (∀ l ∈ ls, ¬ l.OfApp) →
    a ≠ .blocked → s.app = a :: r → Inv s → run s ls = some s' → s'.app = a :: r
  | [], s, s', a, r, _, _, _, he, _, h => by simp only [run, Option.some.injEq] at h; exact h ▸ he
  | l :: ls, s, s', a, r, hp, hc, ha, he, hi, h => by
    simp only [run] at h
    split at h
    · rename_i s1 h1
      have hv := step_inv s s1 l (hp l (by simp)) hi h1
      refine app_kept ls (fun l hl => hp l (by simp [hl])) (fun l hl => hc l (by simp [hl])) ha ?_ hv h
      have hcl := hc l (by simp)
      unfold step at h1
      rw [if_pos hi.two.bad] at h1
      cases l with
      | act w c =>
        cases w with
        | app => exact absurd trivial hcl
        | net | mdns =>
          simp only at h1
          split at h1
          · cases h1
          · rename_i b q e
            obtain ⟨-, -, -, -, k⟩ := exec_other (by simp) (hi.may _ b (by rw [e]; simp)) h1
            rcases k with k | ⟨p, k, -⟩
            · rw [k, he]
            · rw [k] at he; injection he with he; exact absurd he.symm ha
      | call c => exact absurd trivial hcl
      | message m =>
        simp only at h1
        split at h1
        · simp only [Option.some.injEq] at h1; subst h1; exact he
        · cases h1
      | timer => simp only [Option.some.injEq] at h1; subst h1; exact he
      | take =>
        simp only at h1
        split at h1
        · split at h1
          · simp only [Option.some.injEq] at h1; subst h1; exact he
          · cases h1
        · cases h1
      | finish =>
        simp only at h1
        split at h1
        · simp only [Option.some.injEq] at h1; subst h1; exact he
        · cases h1
      | spurious => exact absurd (hp .spurious (by simp)) (by simp [Label.Polite])
    · cases h

/-- Nothing of the service runs. -/
structure Off (s : St) : Prop where
  net : s.net = []
  up : s.netUp = false
  life : s.life = .none

theorem off_step {b : Bool} {s s' : St} {l : Label} (hl : l.Polite) (hc : ¬ l.Connects) (hi : Leaving b s) (ho : Off s)
    (h : step s l = some s') : ¬ l.Noise ∧ Off s' := by
  have hm := hi.inv.two.idle (by rw [ho.life]; simp)
  unfold step at h
  rw [if_pos hi.inv.two.bad] at h
  cases l with
  | act w c =>
    cases w with
    | app =>
      refine ⟨id, ?_⟩
      cases e : s.app with
      | nil => simp [St.prog, e] at h
      | cons a r =>
        simp only [St.prog, e] at h
        have h1 := hi.listen
        have h2 := hi.start
        rw [e] at h1 h2
        simp only [List.mem_cons, not_or] at h1 h2
        obtain ⟨-, k1, -, k3, k4, -, k6, k7⟩ := exec_app (hi.inv.may .app a (by simp [St.prog, e])) (Ne.symm h1.1) (Ne.symm h2.1) h
        refine ⟨by rw [k1, ho.net], ?_, ?_⟩
        · by_cases e2 : a = .joinNet
          · exact (k3 e2).2
          · rw [k6 e2, ho.up]
        · by_cases e2 : a = .joinMdns
          · exact k4 e2
          · rw [k7 e2, ho.life]
    | net => simp [St.prog, ho.net] at h
    | mdns => simp [St.prog, hm] at h
  | call c =>
    simp only at h
    split at h
    · simp only [Option.some.injEq] at h; subst h; exact ⟨id, ho.net, ho.up, ho.life⟩
    · cases h
  | message m => simp [ho.up] at h
  | timer => simp only [Option.some.injEq] at h; subst h; exact ⟨id, ho.net, ho.up, ho.life⟩
  | take =>
    simp only at h
    split at h
    · rw [if_neg (by rw [ho.life]; simp)] at h; cases h
    · cases h
  | finish =>
    simp only at h
    rw [if_neg (by rw [ho.life]; simp)] at h; cases h
  | spurious => exact absurd hl (by simp [Label.Polite])

theorem off_run {b : Bool} : ∀ (ls : List Label) {s s' : St}, (∀ l ∈ ls, l.Polite) → (∀ l ∈ ls, ¬ l.Connects) →
    Leaving b s → Off s → run s ls = some s' → ∀ l ∈ ls, ¬ l.Noise
  | [], _, _, _, _, _, _, _ => by simp
  | l :: ls, s, s', hp, hc, hi, ho, h => by
    simp only [run] at h
    split at h
    · rename_i s1 h1
      obtain ⟨k1, k2⟩ := off_step (hp l (by simp)) (hc l (by simp)) hi ho h1
      have := off_run ls (fun l hl => hp l (by simp [hl])) (fun l hl => hc l (by simp [hl]))
        (leaving_step (hp l (by simp)) (hc l (by simp)) hi h1) k2 h
      intro x hx
      rcases List.mem_cons.1 hx with rfl | hx
      · exact k1
      · exact this x hx
    · cases h

/-- C76: once `LeaveLocalService` has done its first action — other threads may have moved in between —, no message is
handled until the application connects again, for every schedule. -/
theorem C76_messages_partial (ls mid ls2 : List Label) (c : Choice) (s : St)
    (hp : ∀ l ∈ ls ++ .call .leave :: (mid ++ .act .app c :: ls2), l.Polite) (hm : ∀ l ∈ mid, ¬ l.OfApp)
    (hc : ∀ l ∈ ls2, ¬ l.Connects) (h : run St.start (ls ++ .call .leave :: (mid ++ .act .app c :: ls2)) = some s) (m : Msg) :
    Label.message m ∉ ls2 := by
  intro hmem
  obtain ⟨l2, l3, rfl⟩ := List.append_of_mem hmem
  obtain ⟨s1, h1, h⟩ := run_append' _ _ _ _ h
  have i1 := run_inv _ (fun l hl => hp l (by simp [hl])) _ _ inv_start h1
  rw [run] at h
  split at h
  · rename_i s2 h2
    obtain ⟨i2, e2⟩ := call_leave i1 h2
    obtain ⟨s3, h3, h⟩ := run_append' _ _ _ _ h
    have e3 := app_kept mid (a := .halt) (r := leaveProg.tail) (fun l hl => hp l (by simp [hl])) hm (by simp) e2 i2.inv h3
    have i3 := leaving_run mid (fun l hl => hp l (by simp [hl])) (fun l hl hcon => hm l hl (by
      cases l with
      | call c => trivial
      | _ => exact absurd hcon (by simp [Label.Connects]))) i2 h3
    rw [run] at h
    split at h
    · rename_i s4 h4
      have i4 := leaving_act (hp _ (by simp)) i3 h4
      have hh : s4.halted = true := by
        unfold step at h4
        rw [if_pos i3.inv.two.bad] at h4
        simp only [St.prog, e3, exec, Option.some.injEq] at h4
        subst h4
        rfl
      have i5 : Leaving false s4 := ⟨i4.inv, i4.listen, i4.start, .inr (.inl hh), i4.net, i4.mdns⟩
      obtain ⟨s5, h5, h⟩ := run_append' _ _ _ _ h
      have i6 := leaving_run l2 (fun l hl => hp l (by simp [hl])) (fun l hl => hc l (by simp [hl])) i5 h5
      rw [run] at h
      split at h
      · rename_i s6 h6
        unfold step at h6
        rw [if_pos i6.inv.two.bad] at h6
        simp only at h6
        split at h6
        · rename_i e
          rcases i6.halt with k | k | k
          · cases k.1
          · rw [e.2.2] at k; cases k
          · rw [k] at e; exact absurd e.2.1 (by simp)
        · cases h6
      · cases h
    · cases h
  · cases h

/-- C76: when `LeaveLocalService` has returned, nothing happens in the other threads any more until the application
connects again: no message and no search, for every schedule. -/
theorem C76_silent_partial (ls ls2 ls3 : List Label) (s s' : St)
    (hp : ∀ l ∈ ls ++ .call .leave :: ls2 ++ ls3, l.Polite) (hc : ∀ l ∈ ls2 ++ ls3, ¬ l.Connects)
    (h : run St.start (ls ++ .call .leave :: ls2) = some s) (happ : s.app = []) (h' : run s ls3 = some s') :
    ∀ l ∈ ls3, ¬ l.Noise := by
  obtain ⟨s1, h1, h⟩ := run_append' _ _ _ _ h
  have i1 := run_inv _ (fun l hl => hp l (by simp [hl])) _ _ inv_start h1
  rw [run] at h
  split at h
  · rename_i s2 h2
    obtain ⟨i2, -⟩ := call_leave i1 h2
    have i3 := leaving_run ls2 (fun l hl => hp l (by simp [hl])) (fun l hl => hc l (by simp [hl])) i2 h
    have k1 := i3.net
    have k2 := i3.mdns
    rw [happ] at k1 k2
    simp only [List.not_mem_nil, false_or] at k1 k2
    exact off_run ls3 (fun l hl => hp l (by simp [hl])) (fun l hl => hc l (by simp [hl])) i3 ⟨k1.1, k1.2, k2⟩ h'
  · cases h

/-- Beside the theorems: the application leaves while a message is being handled, and calls something else afterwards. -/
example : ∃ s, run St.start (connected ++ [.message .other] ++ .call .leave :: (go .net 0 ++ .act .app noStations ::
      (go .net 1 ++ go .app 6 ++ [.finish] ++ go .app 2 ++ [.call (.at 3)]))) = some s ∧ s.app ≠ [] := by
  have h : (match run St.start (connected ++ [.message .other] ++ .call .leave :: (go .net 0 ++ .act .app noStations ::
      (go .net 1 ++ go .app 6 ++ [.finish] ++ go .app 2 ++ [.call (.at 3)]))) with
      | some s => !s.app.isEmpty
      | none => false) = true := by decide +kernel
  split at h
  · rename_i s hs
    exact ⟨s, hs, by simpa using h⟩
  · cases h

/-! ## What runs after connecting and after leaving -/

/-- What can be seen of the service: whether it takes messages, whether it searches, whether it can be found. -/
structure Sig where
  up : Bool
  searches : Bool
  shown : Bool
deriving DecidableEq

def St.sig (s : St) : Sig := ⟨s.netUp && !s.halted, s.life == .running && !s.stopFlag, s.announced⟩

def Act.eff : Act → Sig → Sig
  | .halt, x | .joinNet, x => { x with up := false }
  | .listen, x => { x with up := true }
  | .stop, x | .joinMdns, x => { x with searches := false }
  | .start, x => { x with searches := true }
  | .announce, x => { x with shown := true }
  | .silence, x => { x with shown := false }
  | _, x => x

def Sig.fold (x : Sig) (p : List Act) : Sig := p.foldl (fun x a => a.eff x) x

theorem fold_cons (x : Sig) (a : Act) (p : List Act) : x.fold (a :: p) = (a.eff x).fold p := rfl

theorem exec_sig_app {a : Act} {r : List Act} {c : Choice} {s s' : St} (ha : may .app a = true)
    (h : exec .app a r c s = some s') : s'.sig.fold s'.app = s.sig.fold (a :: r) := by
  cases a with
  | lock m =>
    simp only [exec] at h
    split at h <;> simp only [Option.some.injEq, reduceCtorEq] at h
    subst h
    cases m <;> rfl
  | unlock m =>
    simp only [exec, Option.some.injEq] at h
    subst h
    cases m <;> rfl
  | init =>
    simp only [exec, Option.some.injEq] at h
    subst h
    cases e : s.initialised <;> rfl
  | sending n =>
    simp only [exec, Option.some.injEq] at h
    subst h
    by_cases e : n = 0 <;> simp only [e, if_true, if_false] <;> rfl
  | query =>
    simp only [exec, Option.some.injEq] at h
    subst h
    split <;> rfl
  | blocked => simp [exec] at h
  | joinNet =>
    simp only [exec] at h
    split at h
    · rename_i e; cases e
    · split at h
      · simp only [Option.some.injEq] at h
        subst h
        rfl
      · cases h
  | joinMdns =>
    simp only [exec] at h
    split at h
    · cases h
    · rename_i e
      simp only [Option.some.injEq] at h
      subst h
      rfl
  | halt =>
    simp only [exec, Option.some.injEq] at h
    subst h
    show Sig.fold ⟨s.netUp && !true, s.life == .running && !s.stopFlag, s.announced⟩ r = Sig.fold ⟨false, _, _⟩ r
    simp only [Bool.not_true, Bool.and_false]
    rfl
  | stop =>
    simp only [exec, Option.some.injEq] at h
    subst h
    show Sig.fold ⟨s.netUp && !s.halted, s.life == .running && !true, s.announced⟩ r = Sig.fold ⟨_, false, _⟩ r
    simp only [Bool.not_true, Bool.and_false]
    rfl
  | search | store _ | members _ | targets | get _ | wait | listen | start | announce | silence | setCallback =>
    simp only [exec, Option.some.injEq] at h
    subst h
    rfl
  | _ => simp [may] at ha

theorem exec_sig_other {w : Who} {a : Act} {r : List Act} {c : Choice} {s s' : St} (hw : w ≠ .app)
    (ha : may w a = true) (h : exec w a r c s = some s') : s'.sig = s.sig := by
  cases w with
  | app => exact absurd rfl hw
  | net | mdns =>
    cases a with
    | lock m =>
      simp only [exec] at h
      split at h <;> simp only [Option.some.injEq, reduceCtorEq] at h
      subst h
      cases m <;> rfl
    | unlock m =>
      simp only [exec, Option.some.injEq] at h
      subst h
      cases m <;> rfl
    | look u why =>
      simp only [exec, Option.some.injEq] at h
      subst h
      cases why <;> cases singleMember u s.found <;> rfl
    | notify =>
      first
      | (simp [may] at ha; done)
      | simp only [exec] at h
        split at h
        · split at h <;> simp only [Option.some.injEq] at h <;> subst h <;> rfl
        · simp only [Option.some.injEq] at h; subst h; rfl
    | post _ | put _ | push _ | drop | targets | get _ | callback | sending _ | search | store _ | arm =>
      first
      | (simp [may] at ha; done)
      | simp only [exec, Option.some.injEq] at h
        subst h
        rfl
    | _ => simp [may] at ha

theorem sig_step {s s' : St} {l : Label} (hl : l.Polite) (hk : l.Keeps) (hi : Inv s) (h : step s l = some s') :
    s'.sig.fold s'.app = s.sig.fold s.app := by
  have hb := hi.two.bad
  unfold step at h
  rw [if_pos hb] at h
  cases l with
  | act w c =>
    cases w with
    | app =>
      cases e : s.app with
      | nil => simp [St.prog, e] at h
      | cons a r =>
        simp only [St.prog, e] at h
        exact exec_sig_app (hi.may .app a (by simp [St.prog, e])) h
    | net | mdns =>
      simp only at h
      split at h
      · cases h
      · rename_i a r e
        have ha := hi.may _ a (by rw [e]; simp)
        rw [exec_sig_other (by simp) ha h]
        obtain ⟨-, -, -, -, k⟩ := exec_other (by simp) ha h
        rcases k with k | ⟨p, k, k'⟩
        · rw [k]
        · rw [k, k']; rfl
  | call c =>
    simp only at h
    split at h
    · rename_i e
      simp only [Option.some.injEq] at h
      subst h
      rw [e]
      cases c with
      | connect _ | leave => exact absurd hk id
      | query | «at» _ | onMessage | send => rfl
    · cases h
  | message m =>
    simp only at h
    split at h
    · simp only [Option.some.injEq] at h; subst h; rfl
    · cases h
  | timer => simp only [Option.some.injEq] at h; subst h; rfl
  | take =>
    simp only at h
    split at h
    · split at h
      · simp only [Option.some.injEq] at h; subst h; rfl
      · cases h
    · cases h
  | finish =>
    simp only at h
    split at h
    · rename_i e
      simp only [Option.some.injEq] at h
      subst h
      have : ({ s with life := .ended } : St).sig = s.sig := by
        simp [St.sig, e.1, e.2.2]
      rw [this]
    · cases h
  | spurious => exact absurd hl (by simp [Label.Polite])

theorem sig_run : ∀ (ls : List Label) {s s' : St}, (∀ l ∈ ls, l.Polite) → (∀ l ∈ ls, l.Keeps) → Inv s →
    run s ls = some s' → s'.sig.fold s'.app = s.sig.fold s.app
  | [], s, s', _, _, _, h => by simp only [run, Option.some.injEq] at h; rw [h]
  | l :: ls, s, s', hp, hk, hi, h => by
    simp only [run] at h
    split at h
    · rename_i s1 h1
      rw [sig_run ls (fun l hl => hp l (by simp [hl])) (fun l hl => hk l (by simp [hl])) (step_inv s s1 l (hp l (by simp)) hi h1) h,
        sig_step (hp l (by simp)) (hk l (by simp)) hi h1]
    · cases h

theorem sig_call {c : Call} {s s' : St} (hi : Inv s) (h : step s (.call c) = some s') : s'.app = c.prog := by
  unfold step at h
  rw [if_pos hi.two.bad] at h
  simp only at h
  split at h
  · simp only [Option.some.injEq] at h; subst h; rfl
  · cases h

/-- C76: when `ConnectToLocalService` has returned, and until the next call that connects or leaves, the station can be
found, takes every message as soon as the one before is done, and does every search that is due as soon as the one before
is done — for every schedule and every other call, also while these are going on. -/
theorem C76_connected_partial (ls ls2 : List Label) (name : List Char) (s : St)
    (hp : ∀ l ∈ ls ++ .call (.connect name) :: ls2, l.Polite) (hk : ∀ l ∈ ls2, l.Keeps)
    (h : run St.start (ls ++ .call (.connect name) :: ls2) = some s) (happ : s.app = []) :
    s.announced = true ∧ (s.net = [] → ∀ m, ∃ s', step s (.message m) = some s') ∧
      (s.mdns = [] → s.queue ≠ [] → ∃ s', step s .take = some s') := by
  obtain ⟨s1, h1, h⟩ := run_append' _ _ _ _ h
  have i1 := run_inv _ (fun l hl => hp l (by simp [hl])) _ _ inv_start h1
  rw [run] at h
  split at h
  · rename_i s2 h2
    have i2 := step_inv s1 s2 (.call (.connect name)) trivial i1 h2
    have i3 := run_inv ls2 (fun l hl => hp l (by simp [hl])) _ _ i2 h
    have e := sig_run ls2 (fun l hl => hp l (by simp [hl])) hk i2 h
    rw [happ, sig_call i1 h2] at e
    have e : s.sig = ⟨true, true, true⟩ := e
    simp only [St.sig, Sig.mk.injEq, Bool.and_eq_true, Bool.not_eq_true', beq_iff_eq] at e
    obtain ⟨⟨e1, e2⟩, ⟨e3, e4⟩, e5⟩ := e
    refine ⟨e5, fun hn m => ?_, fun hm hq => ?_⟩
    · exact ⟨_, by unfold step; rw [if_pos i3.two.bad]; simp only; rw [if_pos ⟨hn, e1, e2⟩]⟩
    · cases hq' : s.queue with
      | nil => exact absurd hq' hq
      | cons x q =>
        exact ⟨_, by unfold step; rw [if_pos i3.two.bad]; simp only [hq']; rw [if_pos ⟨e3, hm⟩]⟩
  · cases h

/-- C76: when `LeaveLocalService` has returned, the station can no longer be found until it is connected again. -/
theorem C76_hidden_partial (ls ls2 : List Label) (s : St) (hp : ∀ l ∈ ls ++ .call .leave :: ls2, l.Polite)
    (hk : ∀ l ∈ ls2, ¬ l.Connects) (h : run St.start (ls ++ .call .leave :: ls2) = some s) (happ : s.app = []) :
    s.announced = false := by
  obtain ⟨s1, h1, h⟩ := run_append' _ _ _ _ h
  have i1 := run_inv _ (fun l hl => hp l (by simp [hl])) _ _ inv_start h1
  rw [run] at h
  split at h
  · rename_i s2 h2
    have i2 := step_inv s1 s2 (.call .leave) trivial i1 h2
    have e2 : (s2.sig.fold s2.app).shown = false := by rw [sig_call i1 h2]; rfl
    have key : ∀ (l : List Label) (a b : St), (∀ x ∈ l, x.Polite) → (∀ x ∈ l, ¬ x.Connects) → Inv a →
        (a.sig.fold a.app).shown = false → run a l = some b → (b.sig.fold b.app).shown = false := by
      intro l
      induction l with
      | nil => intro a b _ _ _ ha hb; simp only [run, Option.some.injEq] at hb; exact hb ▸ ha
      | cons x t ih =>
        intro a b hp hc hi ha hb
        simp only [run] at hb
        split at hb
        · rename_i a1 hx
          refine ih a1 b (fun y hy => hp y (by simp [hy])) (fun y hy => hc y (by simp [hy]))
            (step_inv a a1 x (hp x (by simp)) hi hx) ?_ hb
          by_cases hk : x.Keeps
          · rw [sig_step (hp x (by simp)) hk hi hx]; exact ha
          · cases x with
            | call c =>
              cases c with
              | connect n => exact absurd trivial (hc (.call (.connect n)) (by simp))
              | leave => rw [sig_call hi hx]; rfl
              | _ => exact absurd trivial hk
            | _ => exact absurd trivial hk
        · cases hb
    have e3 := key ls2 s2 s (fun l hl => hp l (by simp [hl])) hk i2 e2 h
    rw [happ] at e3
    exact e3
  · cases h

/-- Beside the theorems: connecting returns, also while messages and searches are going on. -/
example : ∃ s, run St.start (connected ++ [.message (.join (1, 2, 3, 4)), .take, .call (.at 0)] ++ go .mdns 1 ++ go .net 3 ++
      go .app 3) = some s ∧ s.app = [] ∧ s.net ≠ [] ∧ s.mdns ≠ [] := by
  have h : (match run St.start (connected ++ [.message (.join (1, 2, 3, 4)), .take, .call (.at 0)] ++ go .mdns 1 ++ go .net 3 ++
      go .app 3) with
      | some s => s.app.isEmpty && (!s.net.isEmpty && !s.mdns.isEmpty)
      | none => false) = true := by decide +kernel
  split at h
  · rename_i s hs
    refine ⟨s, hs, ?_⟩
    simpa [and_assoc] using h
  · cases h

end Verif.Sched
