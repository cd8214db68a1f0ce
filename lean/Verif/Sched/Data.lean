import Verif.Sched.Props

/-! # C22 for every schedule: who is in the group -/

namespace Verif.Sched

open Verif.Xchg Verif.Uuid

section
variable (P : Station → Prop)

/-- What an action carries comes from stations that were found. -/
def Carries : Act → Prop
  | .store l => ∀ st ∈ l, P st
  | .put m | .push m => ∃ st, P st ∧ m = st.member
  | _ => True

structure Known (s : St) : Prop where
  found : ∀ st ∈ s.found, P st
  group : ∀ m ∈ s.group, ∃ st, P st ∧ m = st.member
  acts : ∀ w, ∀ a ∈ s.prog w, Carries P a

theorem plain_carries (p : List Act) (h : p.all (fun a => match a with | .store _ | .put _ | .push _ => false | _ => true) = true) :
    ∀ a ∈ p, Carries P a := by
  intro a ha
  have := List.all_eq_true.1 h a ha
  cases a <;> simp_all [Carries]

theorem user_carries (us : List User) : ∀ a ∈ us.flatMap User.prog, Carries P a := by
  intro a ha
  obtain ⟨u, -, hau⟩ := List.mem_flatMap.1 ha
  exact plain_carries P u.prog (by cases u <;> rfl) a hau

theorem known_set (s x : St) (w : Who) (p : List Act) (hs : Known P s) (hx : ∀ v, x.prog v = s.prog v)
    (hf : ∀ st ∈ x.found, P st) (hg : ∀ m ∈ x.group, ∃ st, P st ∧ m = st.member) (hp : ∀ a ∈ p, Carries P a) :
    Known P (x.setProg w p) := by
  refine ⟨by cases w <;> exact hf, by cases w <;> exact hg, ?_⟩
  intro v
  rw [setProg_prog]
  split
  · exact hp
  · rw [hx v]; exact hs.acts v

theorem single_known (u : Words) (l : List Station) (hl : ∀ st ∈ l, P st) (m : Member) (h : singleMember u l = some m) :
    ∃ st, P st ∧ m = st.member := by
  unfold singleMember at h
  rw [Option.map_eq_some_iff] at h
  obtain ⟨st, h1, h2⟩ := h
  exact ⟨st, hl st (List.mem_of_find?_eq_some h1), h2.symm⟩

theorem mem_putMember (m x : Member) (l : List Member) (h : x ∈ putMember m l) : x = m ∨ x ∈ l := by
  induction l with
  | nil => simpa [putMember] using h
  | cons y l ih =>
    unfold putMember at h
    split at h
    · rcases List.mem_cons.1 h with e | e
      · exact .inl e
      · exact .inr (List.mem_cons_of_mem _ e)
    · rcases List.mem_cons.1 h with e | e
      · exact .inr (e ▸ List.mem_cons_self ..)
      · rcases ih e with e | e
        · exact .inl e
        · exact .inr (List.mem_cons_of_mem _ e)

theorem exec_known (w : Who) (a : Act) (r : List Act) (c : Choice) (s s' : St) (hp : s.prog w = a :: r)
    (hc : ∀ st ∈ c.found, P st) (hs : Known P s) (h : exec w a r c s = some s') : Known P s' := by
  have hw := hs.acts w
  rw [hp] at hw
  have ha := hw a (List.mem_cons_self ..)
  have hr : ∀ b ∈ r, Carries P b := fun b hb => hw b (List.mem_cons_of_mem _ hb)
  have cons : ∀ b p, Carries P b → (∀ x ∈ p, Carries P x) → ∀ x ∈ b :: p, Carries P x := by
    intro b p hb hp x hx
    rcases List.mem_cons.1 hx with rfl | hx
    · exact hb
    · exact hp x hx
  have set := fun x p hx => known_set P s x w p hs hx
  cases a with
  | lock m =>
    simp only [exec] at h
    split at h <;> simp only [Option.some.injEq, reduceCtorEq] at h
    subst h
    exact set _ _ (fun v => by cases m <;> cases v <;> rfl) (by cases m <;> exact hs.found) (by cases m <;> exact hs.group) hr
  | unlock m =>
    simp only [exec, Option.some.injEq] at h
    subst h
    exact set _ _ (fun v => by cases m <;> cases v <;> rfl) (by cases m <;> exact hs.found) (by cases m <;> exact hs.group) hr
  | search =>
    simp only [exec, Option.some.injEq] at h
    subst h
    exact set _ _ (fun _ => rfl) hs.found hs.group (cons _ _ trivial (cons _ _ hc (cons _ _ trivial hr)))
  | store l =>
    simp only [exec, Option.some.injEq] at h
    subst h
    exact set _ _ (fun v => by cases v <;> rfl) ha hs.group hr
  | look u why =>
    simp only [exec, Option.some.injEq] at h
    subst h
    cases hf : singleMember u s.found with
    | none =>
      cases why
      · exact set _ _ (fun _ => rfl) hs.found hs.group (cons _ _ trivial (cons _ _ trivial hr))
      · exact set _ _ (fun _ => rfl) hs.found hs.group (cons _ _ trivial hr)
      · exact set _ _ (fun _ => rfl) hs.found hs.group (cons _ _ trivial (cons _ _ trivial (cons _ _ trivial (cons _ _ trivial hr))))
    | some m =>
      have hm := single_known P u s.found hs.found m hf
      cases why
      · exact set _ _ (fun _ => rfl) hs.found hs.group (cons _ _ trivial (cons _ _ trivial (cons _ _ hm (cons _ _ trivial hr))))
      · exact set _ _ (fun _ => rfl) hs.found hs.group (cons _ _ trivial (cons _ _ trivial (cons _ _ hm (cons _ _ trivial hr))))
      · exact set _ _ (fun _ => rfl) hs.found hs.group (cons _ _ trivial hr)
  | put m =>
    simp only [exec, Option.some.injEq] at h
    subst h
    refine set _ _ (fun v => by cases v <;> rfl) hs.found ?_ hr
    intro x hx
    rcases mem_putMember m x s.group hx with rfl | e
    · exact ha
    · exact hs.group x e
  | push m =>
    simp only [exec, Option.some.injEq] at h
    subst h
    refine set _ _ (fun v => by cases v <;> rfl) hs.found ?_ hr
    intro x hx
    rcases List.mem_append.1 hx with e | e
    · exact hs.group x e
    · rw [List.mem_singleton.1 e]; exact ha
  | drop =>
    simp only [exec, Option.some.injEq] at h
    subst h
    exact set _ _ (fun v => by cases v <;> rfl) hs.found (fun x hx => hs.group x (List.mem_filter.1 hx).1) hr
  | init =>
    simp only [exec, Option.some.injEq] at h
    subst h
    refine set _ _ (fun _ => rfl) hs.found hs.group (cons _ _ trivial ?_)
    split
    · exact hr
    · exact cons _ _ trivial hr
  | members name =>
    simp only [exec, Option.some.injEq] at h
    subst h
    refine set _ _ (fun v => by cases v <;> rfl) hs.found ?_ hr
    intro x hx
    simp only [membersOf, List.mem_map, List.mem_filter] at hx
    obtain ⟨st, ⟨h1, -⟩, rfl⟩ := hx
    exact ⟨st, hs.found st h1, rfl⟩
  | targets =>
    simp only [exec, Option.some.injEq] at h
    subst h
    exact set _ _ (fun _ => rfl) hs.found hs.group (cons _ _ trivial (cons _ _ trivial hr))
  | sending n =>
    simp only [exec, Option.some.injEq] at h
    subst h
    refine set _ _ (fun _ => rfl) hs.found hs.group ?_
    split
    · exact hr
    · exact cons _ _ trivial hr
  | query =>
    simp only [exec, Option.some.injEq] at h
    subst h
    split
    · exact set _ _ (fun _ => rfl) hs.found hs.group (cons _ _ trivial hr)
    · exact set _ _ (fun v => by cases v <;> rfl) hs.found hs.group (cons _ _ trivial hr)
  | wait =>
    simp only [exec, Option.some.injEq] at h
    subst h
    exact set _ _ (fun _ => rfl) hs.found hs.group (cons _ _ trivial hr)
  | blocked => simp [exec] at h
  | notify =>
    simp only [exec] at h
    split at h
    · split at h <;> simp only [Option.some.injEq] at h <;> subst h
      · rename_i p he
        refine known_set P { s with app := p, cv := false } _ w r ⟨hs.found, hs.group, ?_⟩ (fun _ => rfl) hs.found hs.group hr
        intro v
        cases v
        · have h2 := hs.acts .app
          simp only [St.prog, he] at h2
          exact fun b hb => h2 b (List.mem_cons_of_mem _ hb)
        · exact hs.acts .net
        · exact hs.acts .mdns
      · exact set _ _ (fun _ => rfl) hs.found hs.group hr
    · simp only [Option.some.injEq] at h
      subst h
      exact set _ _ (fun v => by cases v <;> rfl) hs.found hs.group hr
  | joinNet =>
    simp only [exec] at h
    split at h
    · simp only [Option.some.injEq] at h
      subst h
      exact ⟨hs.found, hs.group, fun v => by cases v <;> first | exact hs.acts .app | exact hs.acts .net | exact hs.acts .mdns⟩
    · split at h <;> simp only [Option.some.injEq, reduceCtorEq] at h
      subst h
      exact set _ _ (fun v => by cases v <;> rfl) hs.found hs.group hr
  | joinMdns =>
    simp only [exec] at h
    split at h <;> simp only [Option.some.injEq, reduceCtorEq] at h
    subst h
    exact set _ _ (fun v => by cases v <;> rfl) hs.found hs.group hr
  | callback =>
    simp only [exec, Option.some.injEq] at h
    subst h
    refine set _ _ (fun _ => rfl) hs.found hs.group ?_
    intro b hb
    rcases List.mem_append.1 hb with hb | hb
    · exact user_carries P _ b hb
    · exact hr b hb
  | _ =>
    simp only [exec, Option.some.injEq] at h
    subst h
    exact set _ _ (fun v => by cases v <;> rfl) hs.found hs.group hr

theorem step_known (s s' : St) (l : Label) (hl : ∀ w c, l = .act w c → ∀ st ∈ c.found, P st) (hs : Known P s)
    (h : step s l = some s') : Known P s' := by
  unfold step at h
  split at h
  · cases l with
    | act w c =>
      simp only at h
      split at h
      · cases h
      · rename_i a r hpr
        exact exec_known P w a r c s s' hpr (hl w c rfl) hs h
    | call c =>
      simp only at h
      split at h <;> simp only [Option.some.injEq, reduceCtorEq] at h
      subst h
      refine ⟨hs.found, hs.group, fun v => ?_⟩
      cases v
      · exact plain_carries P c.prog (by cases c <;> rfl)
      · exact hs.acts .net
      · exact hs.acts .mdns
    | message m =>
      simp only at h
      split at h <;> simp only [Option.some.injEq, reduceCtorEq] at h
      subst h
      refine ⟨hs.found, hs.group, fun v => ?_⟩
      cases v
      · exact hs.acts .app
      · exact plain_carries P m.prog (by cases m <;> rfl)
      · exact hs.acts .mdns
    | timer =>
      simp only [Option.some.injEq] at h
      subst h
      exact ⟨hs.found, hs.group, fun v => by cases v <;> first | exact hs.acts .app | exact hs.acts .net | exact hs.acts .mdns⟩
    | take =>
      simp only at h
      split at h
      · rename_i x xs hx
        split at h <;> simp only [Option.some.injEq, reduceCtorEq] at h
        subst h
        refine ⟨hs.found, hs.group, fun v => ?_⟩
        cases v
        · exact hs.acts .app
        · exact hs.acts .net
        · exact plain_carries P x.prog (by cases x <;> rfl)
      · cases h
    | finish =>
      simp only at h
      split at h <;> simp only [Option.some.injEq, reduceCtorEq] at h
      subst h
      exact ⟨hs.found, hs.group, fun v => by cases v <;> first | exact hs.acts .app | exact hs.acts .net | exact hs.acts .mdns⟩
    | spurious =>
      simp only at h
      split at h <;> simp only [Option.some.injEq, reduceCtorEq] at h
      rename_i p he
      subst h
      refine ⟨hs.found, hs.group, fun v => ?_⟩
      cases v
      · have h2 := hs.acts .app
        simp only [St.prog, he] at h2
        exact fun b hb => h2 b (List.mem_cons_of_mem _ hb)
      · exact hs.acts .net
      · exact hs.acts .mdns
  · cases h

theorem run_known (ls : List Label) (hl : ∀ l ∈ ls, ∀ w c, l = .act w c → ∀ st ∈ c.found, P st) (s s' : St) (hs : Known P s)
    (h : run s ls = some s') : Known P s' := by
  induction ls generalizing s with
  | nil => simp only [run, Option.some.injEq] at h; exact h ▸ hs
  | cons l ls ih =>
    simp only [run] at h
    split at h
    · rename_i s1 h1
      exact ih (fun l hl' => hl l (by simp [hl'])) s1 (step_known P s s1 l (hl l (by simp)) hs h1) h
    · cases h

end

/-- Whatever the schedule of the threads, every member of the group, and every station reported, was found by a search. -/
theorem C22_schedules (ls : List Label) (s : St) (h : run St.start ls = some s) :
    (∀ m ∈ s.group, ∃ w c, Label.act w c ∈ ls ∧ ∃ st ∈ c.found,
      m = { ip := st.ipV4, port := st.port, name := st.name, uuid := st.uuid }) ∧
    (∀ st ∈ s.found, ∃ w c, Label.act w c ∈ ls ∧ st ∈ c.found) := by
  have hk := run_known (fun st => ∃ w c, Label.act w c ∈ ls ∧ st ∈ c.found) ls
    (fun l hl w c e st hst => ⟨w, c, e ▸ hl, hst⟩) St.start s
    ⟨by simp [St.start], by simp [St.start], fun v => by cases v <;> simp [St.start, St.prog]⟩ h
  refine ⟨?_, hk.found⟩
  intro m hm
  obtain ⟨st, ⟨w, c, hc, hst⟩, rfl⟩ := hk.group m hm
  exact ⟨w, c, hc, st, hst, rfl⟩

/-- A station that is found while its JOIN message is being handled gets into the group. -/
example : ∃ s, run St.start (connected ++ [.message (.join (1, 2, 3, 4))] ++ go .net 4 ++ [.take] ++ go .mdns 5 ++ [.take] ++
    [.act .mdns ⟨[⟨"X".toList, (1, 2, 3, 4), "A".toList, ["10.0.0.2".toList], [], 4000⟩], []⟩] ++ go .mdns 9) = some s ∧
    s.group = [⟨["10.0.0.2".toList], 4000, "A".toList, (1, 2, 3, 4)⟩] := by
  have h : (match run St.start (connected ++ [.message (.join (1, 2, 3, 4))] ++ go .net 4 ++ [.take] ++ go .mdns 5 ++ [.take] ++
    [.act .mdns ⟨[⟨"X".toList, (1, 2, 3, 4), "A".toList, ["10.0.0.2".toList], [], 4000⟩], []⟩] ++ go .mdns 9) with
      | some s => s.group == [⟨["10.0.0.2".toList], 4000, "A".toList, (1, 2, 3, 4)⟩]
      | none => false) = true := by decide +kernel
  split at h
  · rename_i s hs
    exact ⟨s, hs, by simpa using h⟩
  · cases h

end Verif.Sched
