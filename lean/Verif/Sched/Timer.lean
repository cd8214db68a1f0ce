/-!
# The periodic search (src/mvrxchange/CMVRxchangeService.cpp:443-474)

Times are in milliseconds.  `boost::asio::deadline_timer`: an `async_wait` keeps its handler until the expiry time is
reached or the timer is set anew; setting it anew (`expires_from_now`) runs the handlers that are still waiting as well, with
an error code.  `mDNS_Client_Tick` is bound without placeholders, so it does not see the error code (line 449).  Which
handler runs when is decided by the history; handlers only run while the search thread is there, which the history is free
to respect.
-/

namespace Verif.Sched

structure Clock where
  now : Nat
  expiry : Nat
  /-- handlers waiting for the timer -/
  waiting : Nat
  /-- `mDNS_Client_Tick` handlers in the queue of `fmdns_IO_Context` -/
  ready : Nat
  /-- periodic searches, begin and end, the latest first -/
  searches : List (Nat × Nat)
deriving DecidableEq

def Clock.zero : Clock := ⟨0, 0, 0, 0, []⟩

inductive Tick
  | start            -- `mDNS_Client_Start`: the service was joined
  | run (d : Nat)    -- `mDNS_Client_Tick`; its search takes `d`
  | other (d : Nat)  -- another handler runs, its search takes `d`
  | pass (d : Nat)   -- time passes
  | fire             -- the expiry time is reached, the waiting handlers go to the queue
deriving DecidableEq

/-- CMVRxchangeService.cpp:460-465 for `start`, CMVRxchangeService.cpp:443-450 for `run`.  `mDNS_Client_Stop` (467-474) leaves
timer and queue as they are and is no event here. -/
def Clock.step (c : Clock) : Tick → Option Clock
  | .start => some { c with ready := c.ready + 1 }
  | .run d =>
    match c.ready with
    | 0 => none
    | r + 1 =>
      let t := c.now + d
      some { now := t, expiry := t + 45000, waiting := 1, ready := r + c.waiting, searches := (c.now, t) :: c.searches }
  | .other d => some { c with now := c.now + d }
  | .pass d => some { c with now := c.now + d }
  | .fire => if c.expiry ≤ c.now then some { c with ready := c.ready + c.waiting, waiting := 0 } else none

def Clock.run (c : Clock) : List Tick → Option Clock
  | [] => some c
  | e :: es => match c.step e with
    | some c' => c'.run es
    | none => none

/-! ## C72 -/

/-- Every periodic search begins at least 45 s after the end of each earlier one. -/
def Spaced (l : List (Nat × Nat)) : Prop := l.Pairwise fun later earlier => earlier.2 + 45000 ≤ later.1

/-- How often the service was joined. -/
def starts (es : List Tick) : Nat := es.count .start

/-- Handlers are neither lost nor made: there is one for each time the service was joined. -/
theorem step_count (c c' : Clock) (e : Tick) (h : c.step e = some c') :
    c'.ready + c'.waiting = c.ready + c.waiting + starts [e] ∧ (c.waiting ≤ 1 → c'.waiting ≤ 1) := by
  cases e with
  | start =>
    simp only [Clock.step, Option.some.injEq] at h
    subst h
    have : starts [Tick.start] = 1 := rfl
    exact ⟨by show c.ready + 1 + c.waiting = _; omega, id⟩
  | run d =>
    simp only [Clock.step] at h
    split at h
    · cases h
    · rename_i r hr
      simp only [Option.some.injEq] at h
      subst h
      have : starts [Tick.run d] = 0 := rfl
      exact ⟨by show r + c.waiting + 1 = _; omega, fun _ => Nat.le_refl 1⟩
  | other d | pass d =>
    simp only [Clock.step, Option.some.injEq] at h
    subst h
    exact ⟨rfl, id⟩
  | fire =>
    simp only [Clock.step] at h
    split at h
    · simp only [Option.some.injEq] at h
      subst h
      exact ⟨rfl, fun _ => Nat.zero_le 1⟩
    · cases h

theorem run_count (es : List Tick) (c c' : Clock) (h : c.run es = some c') :
    c'.ready + c'.waiting = c.ready + c.waiting + starts es ∧ (c.waiting ≤ 1 → c'.waiting ≤ 1) := by
  induction es generalizing c with
  | nil => simp only [Clock.run, Option.some.injEq] at h; subst h; exact ⟨rfl, id⟩
  | cons e es ih =>
    simp only [Clock.run] at h
    split at h
    · rename_i c1 h1
      obtain ⟨a1, a2⟩ := step_count c c1 e h1
      obtain ⟨b1, b2⟩ := ih c1 h
      refine ⟨?_, fun hw => b2 (a2 hw)⟩
      have : starts (e :: es) = starts [e] + starts es := by
        show List.count _ ([e] ++ es) = _
        exact List.count_append
      omega
    · cases h

structure OneChain (c : Clock) : Prop where
  count : c.ready + c.waiting ≤ 1
  first : c.ready + c.waiting = 0 → c.searches = []
  due : ∀ p ∈ c.searches, p.2 + 45000 ≤ c.expiry
  idle : c.ready = 0 ∨ c.searches = [] ∨ c.expiry ≤ c.now
  spaced : Spaced c.searches

theorem chain_step (c c' : Clock) (e : Tick) (hn : c'.ready + c'.waiting ≤ 1) (hc : OneChain c)
    (h : c.step e = some c') : OneChain c' := by
  obtain ⟨h1, h0, h2, h3, h4⟩ := hc
  cases e with
  | start =>
    simp only [Clock.step, Option.some.injEq] at h
    subst h
    have hn' : c.ready + 1 + c.waiting ≤ 1 := hn
    have hs := h0 (by omega)
    exact ⟨hn, fun _ => hs, h2, .inr (.inl hs), h4⟩
  | run d =>
    simp only [Clock.step] at h
    split at h
    · cases h
    · rename_i r hr
      simp only [Option.some.injEq] at h
      subst h
      refine ⟨hn, fun e => ?_, ?_, .inl ?_, ?_⟩
      · have : r + c.waiting + 1 = 0 := e
        omega
      · intro p hp
        rcases List.mem_cons.1 hp with rfl | hp
        · exact Nat.le_refl _
        · have e1 := h2 p hp
          rcases h3 with e2 | e2 | e2
          · omega
          · rw [e2] at hp; cases hp
          · show p.2 + 45000 ≤ c.now + d + 45000
            omega
      · show r + c.waiting = 0
        omega
      · refine List.pairwise_cons.2 ⟨?_, h4⟩
        intro p hp
        have e1 := h2 p hp
        rcases h3 with e2 | e2 | e2
        · omega
        · rw [e2] at hp; cases hp
        · show p.2 + 45000 ≤ c.now
          omega
  | other d | pass d =>
    simp only [Clock.step, Option.some.injEq] at h
    subst h
    refine ⟨h1, h0, h2, ?_, h4⟩
    rcases h3 with e | e | e
    · exact .inl e
    · exact .inr (.inl e)
    · exact .inr (.inr (Nat.le_trans e (Nat.le_add_right ..)))
  | fire =>
    simp only [Clock.step] at h
    split at h
    · rename_i he
      simp only [Option.some.injEq] at h
      subst h
      exact ⟨hn, h0, h2, .inr (.inr he), h4⟩
    · cases h

theorem chain_run (es : List Tick) (c c' : Clock) (hn : c.ready + c.waiting + starts es ≤ 1) (hc : OneChain c)
    (h : c.run es = some c') : OneChain c' := by
  induction es generalizing c with
  | nil => simp only [Clock.run, Option.some.injEq] at h; exact h ▸ hc
  | cons e es ih =>
    simp only [Clock.run] at h
    split at h
    · rename_i c1 h1
      have hs : starts (e :: es) = starts [e] + starts es := by
        show List.count _ ([e] ++ es) = _
        exact List.count_append
      have := (step_count c c1 e h1).1
      exact ih c1 (by omega) (chain_step c c1 e (by omega) hc h1) h
    · cases h

/-- A service that was joined once searches the network again at least 45 s after the end of each earlier periodic search,
whatever else happens. -/
theorem C72_spaced_partial (es : List Tick) (hs : starts es ≤ 1) (c : Clock) (h : Clock.zero.run es = some c) :
    c.searches.Pairwise fun later earlier => earlier.2 + 45000 ≤ later.1 :=
  (chain_run es Clock.zero _ (by simpa [Clock.zero] using hs) ⟨by decide, fun _ => rfl, by simp [Clock.zero], .inl rfl, List.Pairwise.nil⟩ h).spaced

/-- The periodic search never dies out: once joined, a search is ready to run, or will be when the timer, which can then
fire, has reached its time; and no step takes that away. -/
theorem C72_alive (es : List Tick) (hs : 1 ≤ starts es) (c : Clock) (h : Clock.zero.run es = some c) :
    (∀ d, ∃ c', c.step (.run d) = some c') ∨
      (c.waiting = 1 ∧ ∀ d, c.expiry ≤ c.now + d → ∃ c', c.run [.pass d, .fire] = some c' ∧ ∀ k, ∃ c'', c'.step (.run k) = some c'') := by
  obtain ⟨h1, h2⟩ := run_count es _ _ h
  have h2 := h2 (by decide)
  have h1 : c.ready + c.waiting = starts es := by simpa [Clock.zero] using h1
  cases hr : c.ready with
  | succ r => left; intro d; simp [Clock.step, hr]
  | zero =>
    right
    have hw : c.waiting = 1 := by omega
    refine ⟨hw, ?_⟩
    intro d hd
    simp only [Clock.run, Clock.step, if_pos hd]
    refine ⟨_, rfl, ?_⟩
    intro k
    simp [hr, hw]

/-- The first search, and the one 45 s later. -/
example : Clock.zero.run [.start, .run 3000, .other 500, .pass 44500, .fire, .run 3000] =
    some ⟨51000, 96000, 1, 0, [(48000, 51000), (0, 3000)]⟩ := by decide

/-- **Violation.** After the service was joined a second time a search is always ready: searching never pauses any more. -/
theorem C72_again_violated (es : List Tick) (hs : 2 ≤ starts es) (c : Clock) (h : Clock.zero.run es = some c) (d : Nat) :
    ∃ c', c.step (.run d) = some c' ∧ c'.searches.head? = some (c.now, c.now + d) ∧ c'.now = c.now + d := by
  obtain ⟨h1, h2⟩ := run_count es _ _ h
  have h2 := h2 (by decide)
  have h1 : c.ready + c.waiting = starts es := by simpa [Clock.zero] using h1
  cases hr : c.ready with
  | succ r => simp only [Clock.step, hr]; exact ⟨_, rfl, rfl, rfl⟩
  | zero => omega

/-- **Violation**, as a history: joined, left and joined again; from then on any number of searches follow each other without
a pause. -/
theorem C72_flood_violated (n d : Nat) : ∃ c, Clock.zero.run ([.start, .run d, .pass 1000, .start] ++ List.replicate n (.run d)) = some c ∧
    c.searches.length = n + 1 ∧ c.now = (n + 1) * d + 1000 := by
  have key : ∀ (k : Nat) (c : Clock), c.ready = 1 → c.waiting = 1 → ∃ c', c.run (List.replicate k (.run d)) = some c' ∧
      c'.searches.length = c.searches.length + k ∧ c'.now = c.now + k * d := by
    intro k
    induction k with
    | zero => intro c _ _; exact ⟨c, rfl, rfl, by simp⟩
    | succ k ih =>
      intro c hr hw
      have hs : c.step (.run d) = some ⟨c.now + d, c.now + d + 45000, 1, 1, (c.now, c.now + d) :: c.searches⟩ := by
        simp [Clock.step, hr, hw]
      obtain ⟨c', h1, h2, h3⟩ := ih (c := ⟨c.now + d, c.now + d + 45000, 1, 1, (c.now, c.now + d) :: c.searches⟩) rfl rfl
      refine ⟨c', ?_, ?_, ?_⟩
      · rw [List.replicate_succ, Clock.run, hs]
        exact h1
      · rw [h2]; simp only [List.length_cons]; omega
      · rw [h3, Nat.succ_mul]; simp only; omega
  obtain ⟨c, h1, h2, h3⟩ := key n ⟨d + 1000, d + 45000, 1, 1, [(0, d)]⟩ rfl rfl
  refine ⟨c, ?_, ?_, ?_⟩
  · have : ([.start, .run d, .pass 1000, .start] ++ List.replicate n (.run d) : List Tick) =
        .start :: .run d :: .pass 1000 :: .start :: List.replicate n (.run d) := rfl
    rw [this]
    simp only [Clock.run, Clock.step, Clock.zero, Nat.zero_add]
    exact h1
  · rw [h2]; simp only [List.length_cons, List.length_nil]; omega
  · rw [h3, Nat.succ_mul]; simp only; omega

end Verif.Sched
