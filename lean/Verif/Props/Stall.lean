import Verif.Spec.Stall
import Verif.Spec.Faults
import Verif.Props.Slots
import Verif.Props.Monitor

/-!
# Property of subscribers that do not read (C95)
-/

namespace Knx
open Spec

/-- The task is at subscriber `id`, whose channel is open and full. -/
def Stuck (s : MSys) (id : Nat) : Prop :=
  (∃ todo active, s.bg.pc = .notify (id :: todo) active) ∧ (s.bg.chans id).isOpen = true ∧ 0 < (s.bg.chans id).cap ∧
    (s.bg.chans id).cap ≤ (s.bg.chans id).len

/-- No call, or one that waits for the connection data or the list of subscribers. -/
def AtLock (a : MApi) : Prop := a = .idle ∨ mlooksUp a = true ∨ a = .isConn ∨ ∃ i, a = .subscribe i

theorem writeCemi_ne_err (m : Mode) (addr : KnxAddress) (v : Bytes) (small : Bool) : writeCemi m addr v small ≠ .err := by
  unfold writeCemi
  have h3 := C08_write_panics_iff v small
  cases ha : Apdu.groupValueWrite v small with
  | ok a => simp only; rw [LDataReq.packet_eq]; split <;> simp
  | err => exact absurd ha h3.2.1
  | panic => simp

/-- One step in which the subscriber does not read. -/
structure StuckStep (s s' : MSys) (o : List Obs) : Prop where
  conn : s'.bg.conn = s.bg.conn
  held : AtLock s'.api
  task : taskObs o = []
  sent : apiSent o = []
  ret : ∀ r ∈ returned o, r = .panic
  taken : (taken o).length + s'.bg.queue.length ≤ s.bg.queue.length

theorem stuck_nextMsg {s s' : MSys} {i : Nat} {c : Cemi} {o : List Obs} (h : nextMsg s i c = some (s', o)) :
    s'.bg = s.bg ∧ s'.api = s.api ∧ taskObs o = [] ∧ apiSent o = [] ∧ returned o = [] ∧ (Spec.taken o).length = 1 := by
  unfold nextMsg nfinish at h
  repeat' split at h
  all_goals
    cases h
    simp [taskObs, ofTask, apiSent, returned, Spec.taken]

theorem stuck_step {m : Mode} {s s' : MSys} {id : Nat} {e : MEv} {o : List Obs} (h : Stuck s id) (ha : AtLock s.api)
    (he : e ≠ .api (.drain id) ∧ e ≠ .api (.closeChan id)) (hs : mstep m s e = some (s', o)) :
    Stuck s' id ∧ StuckStep s s' o := by
  obtain ⟨⟨todo, active, hpc⟩, ho, hc, hf⟩ := h
  have hl : connLocked .monitor s.bg = true := by simp [connLocked, hpc]
  have hg : sendersGone s.bg = false := by simp [sendersGone, hpc]
  cases e with
  | bg e =>
    have : bgStep .monitor m s.bg e = none := by
      cases e <;> simp [bgStep, tickStep, hpc, inSelect, ho]
      exact hf
    simp [mstep, this] at hs
  | delay d =>
    simp only [mstep, Option.some.injEq, Prod.mk.injEq] at hs
    obtain ⟨rfl, rfl⟩ := hs
    exact ⟨⟨⟨todo, active, hpc⟩, ho, hc, hf⟩, rfl, ha, rfl, rfl, by simp [returned], by simp [Spec.taken]⟩
  | api e =>
    simp only [mstep] at hs
    have call : mcallStep m s e = some (s', o) → Stuck s' id ∧ StuckStep s s' o := by
      clear hs
      intro hs
      have start : ∀ c r, r ≠ .err → s.api = .idle → mstartTunnel s c r = some (s', o) → Stuck s' id ∧ StuckStep s s' o := by
        intro c r hr hi h
        cases r with
        | err => exact absurd rfl hr
        | ok cemi =>
          cases h
          exact ⟨⟨⟨todo, active, hpc⟩, ho, hc, hf⟩, rfl, Or.inr (Or.inl rfl), rfl, rfl, by simp [returned], by simp [Spec.taken]⟩
        | panic =>
          cases h
          exact ⟨⟨⟨todo, active, hpc⟩, ho, hc, hf⟩, rfl, ha, rfl, rfl, by simp [returned], by simp [Spec.taken]⟩
      rcases ha with hi | hi | hi | ⟨j, hi⟩
      · simp only [mcallStep, hi] at hs
        cases e <;> simp only [reduceCtorEq] at hs
        case call c =>
          split at hs
          · cases c <;> simp only [mapiCall, reduceCtorEq] at hs
            case write addr v small => exact start _ _ (writeCemi_ne_err m addr v small) hi hs
            case solicit addr => exact start _ _ (by rw [readCemi_eq]; simp) hi hs
            all_goals
              cases hs
              refine ⟨⟨⟨todo, active, hpc⟩, ho, hc, hf⟩, rfl, ?_, rfl, rfl, by simp [returned], by simp [Spec.taken]⟩
              simp [AtLock, mlooksUp]
          · cases hs
        case ncall i =>
          split at hs
          · cases hs
            exact ⟨⟨⟨todo, active, hpc⟩, ho, hc, hf⟩, rfl, Or.inl rfl, rfl, rfl, by simp [returned], by simp [Spec.taken]⟩
          · cases hs
        case drop =>
          split at hs
          · cases hs
            exact ⟨⟨⟨todo, active, hpc⟩, ho, hc, hf⟩, rfl, Or.inl rfl, rfl, rfl, by simp [returned], by simp [Spec.taken]⟩
          · cases hs
      · cases hx : s.api <;> simp [hx, mlooksUp] at hi
        all_goals
          simp only [mcallStep, hx] at hs
          cases e <;> simp [mwithConn, hl] at hs
      · simp only [mcallStep, hi] at hs
        cases e <;> simp [hl] at hs
      · simp only [mcallStep, hi] at hs
        cases e <;> simp [hl] at hs
    cases e
    case cancel =>
      simp only [mapiStep] at hs
      split at hs
      · cases hs
      · cases hs
        exact ⟨⟨⟨todo, active, hpc⟩, ho, hc, hf⟩, rfl, Or.inl rfl, rfl, rfl, by simp [returned], by simp [Spec.taken]⟩
    case nrun i =>
      simp only [mapiStep, hg] at hs
      split at hs
      · split at hs
        · rename_i c rest hq
          obtain ⟨h1, h2, h3, h4, h5, h6⟩ := stuck_nextMsg hs
          refine ⟨⟨⟨todo, active, by rw [h1]; exact hpc⟩, by rw [h1]; exact ho, by rw [h1]; exact hc, by rw [h1]; exact hf⟩,
            by rw [h1], by rw [h2]; exact ha, h3, h4, by simp [h5], ?_⟩
          rw [h1, h6, hq]; simp; omega
        · cases hs
      · cases hs
    case ncancel i =>
      simp only [mapiStep] at hs
      split at hs
      · cases hs
        exact ⟨⟨⟨todo, active, hpc⟩, ho, hc, hf⟩, rfl, ha, rfl, rfl, by simp [returned], by simp [Spec.taken]⟩
      · cases hs
    case mkChan j cap =>
      simp only [mapiStep] at hs
      split at hs
      · rename_i hj
        have hne : id ≠ j := by rintro rfl; omega
        cases hs
        refine ⟨⟨⟨todo, active, hpc⟩, ?_, ?_, ?_⟩, rfl, ha, rfl, rfl, by simp [returned], by simp [Spec.taken, setChan]⟩
        all_goals simpa [setChan, hne]
      · cases hs
    case drain j =>
      have hne : id ≠ j := by rintro rfl; exact he.1 rfl
      simp only [mapiStep] at hs
      split at hs
      · cases hs
        refine ⟨⟨⟨todo, active, hpc⟩, ?_, ?_, ?_⟩, rfl, ha, rfl, rfl, by simp [returned], by simp [Spec.taken, setChan]⟩
        all_goals simpa [setChan, hne]
      · cases hs
    case fill j =>
      simp only [mapiStep] at hs
      split at hs
      · rename_i hj
        have hne : id ≠ j := by rintro rfl; omega
        cases hs
        refine ⟨⟨⟨todo, active, hpc⟩, ?_, ?_, ?_⟩, rfl, ha, rfl, rfl, by simp [returned], by simp [Spec.taken, setChan]⟩
        all_goals simpa [setChan, hne]
      · cases hs
    case closeChan j =>
      have hne : id ≠ j := by rintro rfl; exact he.2 rfl
      simp only [mapiStep] at hs
      cases hs
      refine ⟨⟨⟨todo, active, hpc⟩, ?_, ?_, ?_⟩, rfl, ha, rfl, rfl, by simp [returned], by simp [Spec.taken, setChan]⟩
      all_goals simpa [setChan, hne]
    all_goals exact call hs

/-- What is observed while the subscriber does not read, however long that is. -/
theorem stuck_run {m : Mode} {s s' : MSys} {id : Nat} {evs : List MEv} {tr : List Obs} (h : Stuck s id) (ha : AtLock s.api)
    (he : NotReading id evs) (hr : mrunEvs m s evs = some (s', tr)) : Stuck s' id ∧ StuckStep s s' tr := by
  induction evs generalizing s tr with
  | nil =>
    simp only [mrunEvs, Option.some.injEq, Prod.mk.injEq] at hr
    obtain ⟨rfl, rfl⟩ := hr
    exact ⟨h, rfl, ha, rfl, rfl, by simp [returned], by simp [Spec.taken]⟩
  | cons e es ih =>
    simp only [mrunEvs] at hr
    split at hr
    · cases hr
    · rename_i s1 o hs
      simp only [Option.map_eq_some_iff, Prod.mk.injEq, Prod.exists] at hr
      obtain ⟨s2, tr2, h1, rfl, rfl⟩ := hr
      obtain ⟨k1, k2⟩ := stuck_step h ha (he e (by simp)) hs
      obtain ⟨g1, g2⟩ := ih k1 k2.held (fun x hx => he x (List.mem_cons_of_mem _ hx)) h1
      refine ⟨g1, g2.conn.trans k2.conn, g2.held, ?_, ?_, ?_, ?_⟩
      · have a := k2.task; have b := g2.task
        simp only [taskObs] at a b ⊢
        rw [List.filter_append, a, b]; rfl
      · rw [apiSent_append, k2.sent, g2.sent]; rfl
      · intro r hr
        simp only [returned, List.filterMap_append, List.mem_append] at hr
        rcases hr with hr | hr
        · exact k2.ret r hr
        · exact g2.ret r hr
      · rw [taken_append, List.length_append]
        have a := k2.taken; have b := g2.taken; omega

/-! ## C95 -/

/-- C95, what holds: while the task notifies subscribers it can go on exactly if the next one has dropped its channel or there is room in
it; and when a subscriber that had held it up drops its channel, or reads (and is not to be notified again), the task gets to
receiving again, provided there is room for the other subscribers. -/
theorem C95_resumes_partial (m : Mode) (s : MSys) (id : Nat) (todo active : List Nat) (hpc : s.bg.pc = .notify (id :: todo) active) :
    ((∃ e x, bgStep .monitor m s.bg e = some x) ↔
      (s.bg.chans id).isOpen = false ∨ (s.bg.chans id).len < (s.bg.chans id).cap) ∧
    ((∀ j ∈ todo, j ≠ id → (s.bg.chans j).isOpen = true → (s.bg.chans j).len + todo.count j ≤ (s.bg.chans j).cap) →
      (∃ evs s' tr, mrunEvs m s (.api (.closeChan id) :: evs) = some (s', tr) ∧ s'.bg.pc = .recv ∧
        notifiedIds tr = todo.filter (fun j => j ≠ id ∧ (s.bg.chans j).isOpen)) ∧
      (id ∉ todo → (s.bg.chans id).isOpen = true → 0 < (s.bg.chans id).len → (s.bg.chans id).len ≤ (s.bg.chans id).cap →
        ∃ evs s' tr, mrunEvs m s (.api (.drain id) :: evs) = some (s', tr) ∧ s'.bg.pc = .recv ∧
          notifiedIds tr = id :: todo.filter (fun j => (s.bg.chans j).isOpen))) := by
  have lift : ∀ {t t' : Bg} {tr : List Obs} {a w} (evs : List BgEv), bgRun .monitor m t evs = some (t', tr) →
      mrunEvs m ⟨t, a, w⟩ (evs.map .bg) = some (⟨t', a, w⟩, tr) := by
    intro t t' tr a w evs h
    induction evs generalizing t tr with
    | nil => simp only [bgRun, Option.some.injEq, Prod.mk.injEq] at h; obtain ⟨rfl, rfl⟩ := h; rfl
    | cons e es ih =>
      simp only [bgRun] at h
      split at h
      · cases h
      · rename_i t1 o h1
        simp only [Option.map_eq_some_iff, Prod.mk.injEq, Prod.exists] at h
        obtain ⟨t2, tr2, h2, rfl, rfl⟩ := h
        simp [mrunEvs, mstep, h1, ih h2]
  refine ⟨⟨?_, ?_⟩, fun hroom => ⟨?_, ?_⟩⟩
  · rintro ⟨e, x, hx⟩
    cases e <;> simp [bgStep, tickStep, hpc, inSelect] at hx
    by_contra hn
    simp only [not_or, Bool.not_eq_false] at hn
    simp [hn.1, hn.2] at hx
  · rintro (h | h)
    · exact ⟨.run, _, by simp [bgStep, hpc, h]; rfl⟩
    · cases ho : (s.bg.chans id).isOpen
      · exact ⟨.run, _, by simp [bgStep, hpc, ho]; rfl⟩
      · exact ⟨.run, _, by simp [bgStep, hpc, ho, h]; rfl⟩
  · obtain ⟨t', tr, h1, h2, h3, _⟩ := C62_proceeds m (setChan s id { s.bg.chans id with isOpen := false }).bg (id :: todo) active hpc (by
      intro j hj hjo
      by_cases hne : j = id
      · subst hne; simp [setChan] at hjo
      · simp only [setChan, hne, if_false] at hjo ⊢
        rw [List.count_cons_of_ne (Ne.symm hne)]
        rcases List.mem_cons.1 hj with h | h
        · exact absurd h hne
        · exact hroom j h hne hjo)
    refine ⟨(List.replicate ((id :: todo).length + 1) BgEv.run).map .bg, ⟨t', s.api, s.waiting⟩, tr, ?_, h2, ?_⟩
    · simp only [mrunEvs, mstep, mapiStep]
      rw [show (setChan s id { s.bg.chans id with isOpen := false }) = ⟨(setChan s id { s.bg.chans id with isOpen := false }).bg, s.api, s.waiting⟩ from rfl,
        lift _ h1]
      rfl
    · rw [h3]
      simp only [setChan, List.filter_cons, if_true, Bool.false_eq_true, if_false]
      apply List.filter_congr
      intro j _
      by_cases hne : j = id <;> simp [hne]
  · intro hni ho hl hcap
    obtain ⟨t', tr, h1, h2, h3, _⟩ := C62_proceeds m (setChan s id { s.bg.chans id with len := (s.bg.chans id).len - 1 }).bg (id :: todo) active
      hpc (by
        intro j hj hjo
        by_cases hne : j = id
        · subst hne
          simp only [setChan, if_true]
          rw [List.count_cons_self, List.count_eq_zero_of_not_mem hni]; omega
        · simp only [setChan, hne, if_false] at hjo ⊢
          rw [List.count_cons_of_ne (Ne.symm hne)]
          rcases List.mem_cons.1 hj with h | h
          · exact absurd h hne
          · exact hroom j h hne hjo)
    refine ⟨(List.replicate ((id :: todo).length + 1) BgEv.run).map .bg, ⟨t', s.api, s.waiting⟩, tr, ?_, h2, ?_⟩
    · simp only [mrunEvs, mstep, mapiStep]
      rw [if_pos ⟨ho, hl⟩]
      simp only
      rw [show (setChan s id { s.bg.chans id with len := (s.bg.chans id).len - 1 })
        = ⟨(setChan s id { s.bg.chans id with len := (s.bg.chans id).len - 1 }).bg, s.api, s.waiting⟩ from rfl, lift _ h1]
      rfl
    · rw [h3]
      simp only [setChan, List.filter_cons, if_true, ho]
      congr 1
      apply List.filter_congr
      intro j _
      by_cases hne : j = id
      · subst hne; simp [ho]
      · simp [hne]

/-- The task between connections, with one subscriber, in whose channel there are `n` messages. -/
def between (id cap n : Nat) : Bg :=
  { Bg.init with subs := [id], chans := fun i => if i = id then ⟨cap, n, true⟩ else ⟨0, 0, false⟩ }

/-- A connection that comes up, is announced and is given up. -/
def announced (id : Nat) (g : Bytes × ConnectionResponse) : List Obs :=
  linkTrace .monitor g.1 g.2 ++ [.notified id, .rx [1], .down]

theorem announced_run (m : Mode) (id : Nat) {cap n : Nat} (hn : n < cap) {g : Bytes × ConnectionResponse} (h : Grants g.1 g.2) :
    ∃ evs, bgRun .monitor m (between id cap n) evs = some (between id cap (n + 1), announced id g) := by
  have hc := (tryConnect_iff g.1 g.2).2 h
  have hd : onDatagram [1#8] = .teardown := by decide
  refine ⟨[.run, .sendOk, .dgram g.1, .sendOk, .run, .run, .run, .dgram [1], .run], ?_⟩
  simp [bgRun, bgStep, between, Bg.init, hc, connected, announced, linkTrace, hn, hd, endObs]
  funext i
  split <;> rfl

/-- C95 is refuted: take a subscriber whose channel has room for `cap` messages (any number) and any list of `cap + 1` connections granted
one after the other. If it has not read by then, the monitor is at a standstill, no matter for how long: the task sends nothing (no
heart beat, no acknowledgement) and receives nothing, no call sends anything or returns (unless its arguments make it panic), and
`next_msg` yields nothing; until that subscriber reads or drops its channel. -/
theorem C95_violated (m : Mode) (id cap : Nat) (hcap : 0 < cap) (gs : List (Bytes × ConnectionResponse))
    (hg : ∀ g ∈ gs, Grants g.1 g.2) (hlen : gs.length = cap + 1) :
    ∃ s tr, MExec m s tr ∧ calls tr = [.subscribe id] ∧ ups tr = gs.map (·.2) ∧ notifiedIds tr = List.replicate cap id ∧
      upNow tr = true ∧ ∀ evs s' tr', NotReading id evs → mrunEvs m s evs = some (s', tr') →
        taskObs tr' = [] ∧ apiSent tr' = [] ∧ (∀ r ∈ returned tr', r = .panic) ∧ taken tr' = [] := by
  have start : MExec m ⟨between id cap 0, .idle, []⟩ [.call (.subscribe id), .subscribed id, .ret .unit] := by
    have h : mrunEvs m MSys.init [.api (.mkChan id cap), .api (.call (.subscribe id)), .api .run]
        = some (⟨between id cap 0, .idle, []⟩, [.call (.subscribe id), .subscribed id, .ret .unit]) := by
      simp [mrunEvs, mstep, mapiStep, mcallStep, mapiCall, MSys.init, Bg.init, setChan, hcap, connLocked, mfinish, between,
        Nat.pos_iff_ne_zero.1 hcap]
    exact MExec.init.append (mrunEvs_run h)
  have rounds : ∀ (n : Nat) (l : List (Bytes × ConnectionResponse)), (∀ g ∈ l, Grants g.1 g.2) → l.length = n → n ≤ cap →
      MExec m ⟨between id cap n, .idle, []⟩ ([.call (.subscribe id), .subscribed id, .ret .unit] ++ l.flatMap (announced id)) := by
    intro n l
    induction l using List.reverseRecOn generalizing n with
    | nil => rintro _ rfl _; simpa using start
    | append_singleton l g ih =>
      rintro hl rfl hn
      simp only [List.length_append, List.length_singleton] at hn ⊢
      obtain ⟨evs, he⟩ := announced_run m id (n := l.length) (cap := cap) (by omega) (hl g (by simp))
      have := (ih l.length (fun x hx => hl x (List.mem_append_left _ hx)) rfl (by omega)).append
        (bgRun_mrun (s := ⟨between id cap l.length, .idle, []⟩) he)
      simpa [List.flatMap_append] using this
  obtain ⟨l, g, rfl⟩ : ∃ l g, gs = l ++ [g] := by
    have hne : gs ≠ [] := by rintro rfl; simp at hlen
    exact ⟨_, _, (List.dropLast_append_getLast hne).symm⟩
  simp only [List.length_append, List.length_singleton, Nat.add_right_cancel_iff] at hlen
  have h1 := rounds cap l (fun x hx => hg x (List.mem_append_left _ hx)) hlen le_rfl
  have hc := (tryConnect_iff g.1 g.2).2 (hg g (by simp))
  have h2 : bgRun .monitor m (between id cap cap) [.run, .sendOk, .dgram g.1, .sendOk, .run]
      = some ({ between id cap cap with conn := some (Conn.ofResponse .monitor g.2), pc := .notify [id] [] },
        linkTrace .monitor g.1 g.2) := by
    simp [bgRun, bgStep, between, Bg.init, hc, connected, linkTrace]
  have h3 := h1.append (bgRun_mrun (s := ⟨between id cap cap, .idle, []⟩) h2)
  refine ⟨_, _, h3, ?_, ?_, ?_, ?_, ?_⟩
  · have : ∀ l : List (Bytes × ConnectionResponse), calls (l.flatMap (announced id)) = [] := by
      intro l; induction l with
      | nil => rfl
      | cons x l ih => rw [List.flatMap_cons, calls_append, ih]; simp [announced, linkTrace, calls]
    rw [calls_append, calls_append, this]; simp [calls, linkTrace]
  · have : ∀ l : List (Bytes × ConnectionResponse), ups (l.flatMap (announced id)) = l.map (·.2) := by
      intro l; induction l with
      | nil => rfl
      | cons x l ih => rw [List.flatMap_cons, ups_append', ih]; simp [announced, linkTrace, ups]
    rw [ups_append', ups_append', this]; simp [ups, linkTrace]
  · have : ∀ l : List (Bytes × ConnectionResponse), notifiedIds (l.flatMap (announced id)) = List.replicate l.length id := by
      intro l; induction l with
      | nil => rfl
      | cons x l ih =>
        rw [List.flatMap_cons, notifiedIds, List.filterMap_append, ← notifiedIds, ← notifiedIds, ih]
        simp [announced, linkTrace, notifiedIds, List.replicate_succ]
    have := this l
    simp only [notifiedIds, List.filterMap_append] at this ⊢
    rw [this, hlen]; simp [linkTrace]
  · simp [upNow, List.foldl_append, linkTrace, upStep]
  · intro evs s' tr' he hr
    obtain ⟨_, h⟩ := stuck_run (id := id) ⟨⟨[], [], rfl⟩, by simp [between], by simpa [between], by simp [between]⟩ (Or.inl rfl) he hr
    refine ⟨h.task, h.sent, h.ret, ?_⟩
    have := h.taken
    simp only [between, Bg.init, List.length_nil, Nat.le_zero, Nat.add_eq_zero_iff] at this
    exact List.length_eq_zero_iff.1 this.1

/-- C95, the same for every state in which the task has come to a full channel, with calls that wait: only telegrams that had been queued before
are still handed out. -/
theorem C95_stall {m : Mode} {s s' : MSys} {id : Nat} {todo active : List Nat} {evs : List MEv} {tr : List Obs}
    (hpc : s.bg.pc = .notify (id :: todo) active) (ho : (s.bg.chans id).isOpen = true) (hc : 0 < (s.bg.chans id).cap)
    (hf : (s.bg.chans id).cap ≤ (s.bg.chans id).len) (ha : AtLock s.api) (he : NotReading id evs)
    (hr : mrunEvs m s evs = some (s', tr)) :
    taskObs tr = [] ∧ apiSent tr = [] ∧ (∀ r ∈ returned tr, r = .panic) ∧ (taken tr).length ≤ s.bg.queue.length := by
  obtain ⟨_, h⟩ := stuck_run ⟨⟨todo, active, hpc⟩, ho, hc, hf⟩ ha he hr
  have := h.taken
  exact ⟨h.task, h.sent, h.ret, by omega⟩

/-- A subscriber with room for one message, and two connections: a write, a question whether there is a connection and an hour get nothing done;
then the subscriber reads, is notified, and the write (called again) is sent. -/
example (m : Mode) : ∃ s tr s' tr', MExec m s tr ∧ notifiedIds tr = [1] ∧
    mrunEvs m s [.api (.call .isConnected), .delay 3600000, .api .cancel, .api (.ncall 4),
      .api (.call (.write (.group3 ⟨1, 0, 1⟩) [] true)), .api (.call (.write (.group3 ⟨1, 0, 1⟩) [1] true)), .delay 3600000,
      .api (.fill 2), .api (.drain 1), .bg .run, .bg .run, .api .run, .api .run, .api .sendOk] = some (s', tr') ∧
    (returned tr' = [.panic, .unit] ∧ notifiedIds tr' = [1] ∧ (apiSent tr').length = 1) := by
  obtain ⟨s, tr, h1, h2⟩ := mexec_of_evs (m := m) (evs := [.api (.mkChan 1 1), .api (.mkChan 2 1), .api (.call (.subscribe 1)), .api .run,
      .bg .run, .bg .sendOk, .bg (.dgram grant7), .bg .sendOk, .bg .run, .bg .run, .bg .run, .bg (.dgram [1]), .bg .run,
      .bg .run, .bg .sendOk, .bg (.dgram grant7), .bg .sendOk, .bg .run])
    (f := fun x => (notifiedIds x.2, (mrunEvs m x.1 [.api (.call .isConnected), .delay 3600000, .api .cancel, .api (.ncall 4),
      .api (.call (.write (.group3 ⟨1, 0, 1⟩) [] true)), .api (.call (.write (.group3 ⟨1, 0, 1⟩) [1] true)), .delay 3600000,
      .api (.fill 2), .api (.drain 1), .bg .run, .bg .run, .api .run, .api .run, .api .sendOk]).map fun z =>
        (returned z.2, notifiedIds z.2, (apiSent z.2).length)))
    (y := ([1], some ([.panic, .unit], [1], 1))) (by cases m <;> decide +kernel)
  simp only [Prod.mk.injEq, Option.map_eq_some_iff, Prod.exists] at h2
  obtain ⟨a1, s', tr', a2, a3⟩ := h2
  exact ⟨s, tr, s', tr', h1, a1, a2, a3⟩

/-- Two connections as in `C95_violated`. -/
example : (∀ g ∈ [(grant7, conn7), (grant7, conn7)], Grants g.1 g.2) ∧ [(grant7, conn7), (grant7, conn7)].length = 1 + 1 :=
  ⟨by simp [grants7], rfl⟩

end Knx
