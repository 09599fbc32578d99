import Verif.Lemmas.When
import Verif.Props.Total
import Verif.Props.Blocked
import Verif.Props.Dates
import Verif.Props.Rules
import Verif.Props.Samples
/- What every stored event satisfies, in all histories or in those of careful clients (C78, C79). -/
namespace CalCore
open Spec

/-! ### C78 -/

/-- The documented participation statuses (interfaces.py:84-88 and cal.py:420-421, without None). -/
def documentedStatuses : List String := ["NEEDS-ACTION", "ACCEPTED", "DECLINED", "TENTATIVE", "DELEGATED"]

/-- The documented roles. -/
def documentedRoles : List String := ["CHAIR", "REQ-PARTICIPANT", "OPT-PARTICIPANT", "NON-PARTICIPANT"]

/-- Every role of the event is a documented one. -/
def RolesOk (e : Event) : Prop := ∀ a r, Dict.get? e.prole a = some r → r ∈ documentedRoles

/-- Every status of the event is a documented one. -/
def StatusesOk (e : Event) : Prop := ∀ a s, Dict.get? e.pstate a = some s → s ∈ documentedStatuses

/-- The statuses given for the attendees are documented ones. -/
def GivesStatuses (spec : Spec) : Prop := ∀ p ∈ spec.attendees, p.2.2 ∈ documentedStatuses

theorem RolesOk.set {e : Event} (h : RolesOk e) {d : Dict AttId String} (a : AttId) {r : String} (hr : r ∈ documentedRoles)
    (hd : d = Dict.set e.prole a r) {e' : Event} (he : e'.prole = d) : RolesOk e' := by
  intro x y hxy
  rw [he, hd, Dict.get?_set] at hxy
  split at hxy
  · injection hxy with hxy; rw [← hxy]; exact hr
  · exact h x y hxy

theorem StatusesOk.set {e : Event} (h : StatusesOk e) (a : AttId) {r : String} (hr : r ∈ documentedStatuses)
    {e' : Event} (he : e'.pstate = Dict.set e.pstate a r) : StatusesOk e' := by
  intro x y hxy
  rw [he, Dict.get?_set] at hxy
  split at hxy
  · injection hxy with hxy; rw [← hxy]; exact hr
  · exact h x y hxy

theorem setStatus_roles {e : Event} (h : RolesOk e) (a : AttId) (st : Option String) :
    RolesOk (e.setStatus a st).1 := by
  have hraw : RolesOk (e.setStatusRaw a st).1 := by
    unfold Event.setStatusRaw
    cases st with
    | none =>
      simp only []
      split
      · split
        · intro x y hxy
          simp only [Dict.get?_del] at hxy
          split at hxy
          · cases hxy
          · exact h x y hxy
        · exact h
      · exact h
    | some s => exact h
  unfold Event.setStatus
  split
  · exact h
  · simp only []
    split
    · exact h
    · split
      · rename_i h'; rw [h'] at hraw; exact hraw
      · rename_i h'; rw [h'] at hraw; exact hraw

theorem setRole_roles {e : Event} (h : RolesOk e) (a : AttId) (r : String) : RolesOk (e.setRole a r).1 := by
  unfold Event.setRole
  split
  · exact h
  · rename_i hr
    exact h.set a (Decidable.byContradiction hr) rfl rfl

theorem invite_roles {e : Event} (h : RolesOk e) (l : List AttId) : RolesOk (e.invite l).1 := by
  induction l generalizing e with
  | nil => exact h
  | cons a rest ih =>
    have h1 : RolesOk (e.inviteOne a).1 := by
      have hs := setStatus_roles h a (some "NEEDS-ACTION")
      unfold Event.inviteOne
      split
      · split
        · rename_i h'; rw [h'] at hs; exact hs
        · rename_i h'; rw [h'] at hs; exact setRole_roles hs _ _
      · exact h
    unfold Event.invite
    split
    · rename_i h'; rw [h'] at h1; exact h1
    · rename_i h'; rw [h'] at h1; exact ih h1

theorem setOnObject_roles {e : Event} (h : RolesOk e) (s : Spec) : RolesOk (s.setOnObject e).1 := by
  unfold Spec.setOnObject
  have h0 : RolesOk (s.setOrganizer (s.setAttrs e)) := by
    unfold Spec.setOrganizer
    split
    · exact h.set _ (by decide) rfl rfl
    · exact h
  generalize s.setOrganizer (s.setAttrs e) = o at h0
  induction s.attendees generalizing o with
  | nil => exact h0
  | cons p rest ih =>
    obtain ⟨a, role, status⟩ := p
    unfold setAttendeesLoop
    split
    · exact h0
    · rename_i hr
      cases a with
      | none => exact h0
      | some a => exact ih _ (h0.set a (Decidable.byContradiction hr) rfl rfl)

theorem setStatus_statuses {e : Event} (h : StatusesOk e) (a : AttId) (st : Option String) :
    StatusesOk (e.setStatus a st).1 := by
  have hdel : ∀ {e' : Event}, e'.pstate = Dict.del e.pstate a → StatusesOk e' := by
    intro e' he x y hxy
    rw [he, Dict.get?_del] at hxy
    split at hxy
    · cases hxy
    · exact h x y hxy
  unfold Event.setStatus
  split
  · exact h
  · rename_i hst
    have hraw : StatusesOk (e.setStatusRaw a st).1 := by
      unfold Event.setStatusRaw
      cases st with
      | none =>
        simp only []
        split
        · split
          · exact hdel rfl
          · exact hdel rfl
        · exact h
      | some s =>
        refine h.set a ?_ rfl
        have := Decidable.byContradiction hst
        simpa [statuses, documentedStatuses] using this
    simp only []
    split
    · exact h
    · split
      · rename_i h'; rw [h'] at hraw; exact hraw
      · rename_i h'; rw [h'] at hraw; exact hraw

theorem setRole_pstate (e : Event) (a : AttId) (r : String) : (e.setRole a r).1.pstate = e.pstate := by
  unfold Event.setRole; split <;> rfl

theorem invite_statuses {e : Event} (h : StatusesOk e) (l : List AttId) : StatusesOk (e.invite l).1 := by
  induction l generalizing e with
  | nil => exact h
  | cons a rest ih =>
    have h1 : StatusesOk (e.inviteOne a).1 := by
      have hs := setStatus_statuses h a (some "NEEDS-ACTION")
      unfold Event.inviteOne
      split
      · split
        · rename_i h'; rw [h'] at hs; exact hs
        · rename_i e' n h'
          rw [h'] at hs
          intro x y hxy
          simp only [setRole_pstate] at hxy
          exact hs x y hxy
      · exact h
    unfold Event.invite
    split
    · rename_i h'; rw [h'] at h1; exact h1
    · rename_i h'; rw [h'] at h1; exact ih h1

theorem setOnObject_statuses {e : Event} (h : StatusesOk e) (s : Spec) (hs : GivesStatuses s) :
    StatusesOk (s.setOnObject e).1 := by
  unfold Spec.setOnObject
  unfold GivesStatuses at hs
  have h0 : StatusesOk (s.setOrganizer (s.setAttrs e)) := by
    unfold Spec.setOrganizer
    split
    · exact h.set _ (by decide) rfl
    · exact h
  generalize s.setOrganizer (s.setAttrs e) = o at h0
  generalize s.attendees = l at hs
  induction l generalizing o with
  | nil => exact h0
  | cons p rest ih =>
    obtain ⟨a, role, status⟩ := p
    unfold setAttendeesLoop
    split
    · exact h0
    · cases a with
      | none => exact h0
      | some a => exact ih _ (h0.set a (hs _ (.head _)) rfl) (fun p hp => hs p (.tail _ hp))

theorem keepsRoles : Keeps (fun _ => True) RolesOk where
  new uid spec e _ h := by
    obtain ⟨e0, he0, h⟩ := newEvent_when h
    have : RolesOk e0 := by
      rw [← he0]; exact setOnObject_roles (by intro a r hr; simp [blankEvent] at hr) spec
    rcases h with rfl | rfl
    · exact this
    · exact this
  edit spec e _ h := setOnObject_roles h spec
  status e a st h := setStatus_roles h a st
  role e a r h := setRole_roles h a r
  invite e l h := invite_roles h l
  allday e h := h

theorem keepsStatuses : Keeps GivesStatuses StatusesOk where
  new uid spec e hA h := by
    obtain ⟨e0, he0, h⟩ := newEvent_when h
    have : StatusesOk e0 := by
      rw [← he0]; exact setOnObject_statuses (by intro a r hr; simp [blankEvent] at hr) spec hA
    rcases h with rfl | rfl
    · exact this
    · exact this
  edit spec e hA h := setOnObject_statuses h spec hA
  status e a st h := setStatus_statuses h a st
  role e a r h := by
    intro x y hxy
    rw [setRole_pstate] at hxy
    exact h x y hxy
  invite e l h := invite_statuses h l
  allday e h := h

theorem uses_true (op : Op) : op.Uses (fun _ => True) := by
  cases op <;> simp [Op.Uses]

/-- C78, roles: in every history, every role of every stored event is a documented one. -/
theorem C78_roles (id host : String) (ops : List Op) (ev : Event)
    (h : Stored ((freshWorld id host).run ops).store ev) :
    ∀ a r, Dict.get? ev.prole a = some r →
      r = "CHAIR" ∨ r = "REQ-PARTICIPANT" ∨ r = "OPT-PARTICIPANT" ∨ r = "NON-PARTICIPANT" := by
  intro a r hr
  have := run_all keepsRoles id host ops (fun op _ => uses_true op) _ _ h a r hr
  simpa [documentedRoles] using this

/-- C78, statuses: in every history in which the specifications given or imported name documented statuses
only, every status of every stored event is a documented one.  Missing: specifications with other statuses,
which `setOnObject` accepts (`C78_status_counterexample`). -/
theorem C78_statuses_partial (id host : String) (ops : List Op) (hops : ∀ op ∈ ops, op.Uses GivesStatuses)
    (ev : Event) (h : Stored ((freshWorld id host).run ops).store ev) :
    ∀ a s, Dict.get? ev.pstate a = some s →
      s = "NEEDS-ACTION" ∨ s = "ACCEPTED" ∨ s = "DECLINED" ∨ s = "TENTATIVE" ∨ s = "DELEGATED" := by
  intro a s hs
  have := run_all keepsStatuses id host ops hops _ _ h a s hs
  simpa [documentedStatuses] using this

/-- C78: which imported components are harmless: those whose PARTSTATs, if any, are documented. -/
theorem C78_import_partial (tz : LocalTz) (c : Calendar) (src : Source) (v : VEvent)
    (hv : ∀ a ∈ v.attendees, ∀ p, a.partstat = some p → p ∈ documentedStatuses) (spec : Spec)
    (h : importSpec tz c src v = .ok spec) : GivesStatuses spec := by
  unfold importSpec at h
  simp only [bind_ok] at h
  obtain ⟨_, _, _, _, _, _, h⟩ := h
  injection h with h; subst h
  intro p hp
  simp only [List.mem_map] at hp
  obtain ⟨a, ha, rfl⟩ := hp
  unfold importAttendee
  cases hq : a.partstat with
  | none => show "NEEDS-ACTION" ∈ documentedStatuses; decide
  | some q => exact hv a ha q hq

/-- C78, concrete: a history with a creation, an invitation, a change of status and an edit. -/
example : ∃ ops : List Op, (∀ op ∈ ops, op.Uses GivesStatuses) ∧
    ((freshWorld "st" "host").run ops).store.events.map (fun p => (p.2.pstate, p.2.prole)) =
      [([("alice", "ACCEPTED"), ("bob", "DECLINED")], [("alice", "CHAIR"), ("bob", "REQ-PARTICIPANT")])] := by
  refine ⟨[.create 0 (some "m") { Sample.meeting with attendees := [] }, .invite "m" ["bob"], .setStatus "m" "bob" (some "DECLINED"), .setRole "m" "alice" "CHAIR"],
    ?_, by decide +kernel⟩
  simp [Op.Uses, GivesStatuses]

/-- C78 is false for statuses: PARTSTAT is stored as it is found in imported data. -/
theorem C78_status_counterexample :
    ∃ ev, Dict.get? ((freshWorld "st" "host").run
      [.import_ (fun _ => 0) [("alice", ())] [("alice", ⟨"Alice", "INDIVIDUAL"⟩)]
        [{ uid := some "x", dtstart := some (.naive Sample.day),
           attendees := [{ addr := "alice", partstat := some "COMPLETED" }] }] none none none false]).store.events "x"
        = some ev ∧ Dict.get? ev.pstate "alice" = some "COMPLETED" :=
  ⟨_, rfl, by decide +kernel⟩

/-! ### C79 -/

/-- What a careful client observes about the event specifications it gives or imports: the start is a
Python datetime, there is a duration that is not negative, the day after the end is still a Python date, and
the recurrence rule is one with which `C59` has no difficulty. -/
structure SafeSpec (s : Spec) : Prop where
  start : dtInRange s.dtstart = true
  dur : ∃ d, s.duration = some d ∧ 0 ≤ d ∧ dtInRange (s.dtstart + d + DAY) = true ∧
    (s.recurrence ≠ none → d ≤ 2800000 * DAY)
  rule : ∀ r, s.recurrence = some r → 1 ≤ r.interval ∧ UntilIsDate r ∧ r.interval ≤ 7800 ∧
    (r.kind = .yearly → ¬ IsFeb29 (dtDate s.dtstart)) ∧
    (r.kind = .monthly .monthday → IsFeb29 (dtDate s.dtstart) → r.interval ≤ 19) ∧
    (r.kind = .monthly .lastweekday → ¬ InLastMonth (dtDate s.dtstart))

/-- Safe, and not ending before its start. -/
def FineWhen (t : Int × Option Int × Option Rule) : Prop :=
  dtInRange t.1 = true ∧
  (∃ d, t.2.1 = some d ∧ 0 ≤ d ∧ dtInRange (t.1 + d) = true ∧ (t.2.2 ≠ none → d ≤ 2800000 * DAY)) ∧
  ∀ r, t.2.2 = some r → 1 ≤ r.interval ∧ UntilIsDate r ∧ r.interval ≤ 7800 ∧
    (r.kind = .yearly → ¬ IsFeb29 (dtDate t.1)) ∧
    (r.kind = .monthly .monthday → IsFeb29 (dtDate t.1) → r.interval ≤ 19) ∧
    (r.kind = .monthly .lastweekday → ¬ InLastMonth (dtDate t.1))

/-- The effect of `alldayAdjust` on the times, for a given duration. -/
theorem alldayAdjust_when {e : Event} {d : Int} (hd : e.duration = some d) (h0 : 0 ≤ d) :
    ∃ k, 1 ≤ k ∧ d ≤ k * DAY ∧ (k = 1 ∨ (k - 1) * DAY < d) ∧
      e.alldayAdjust.when = (combine (dtDate e.dtstart) 0, some (k * DAY), e.recurrence) := by
  have h : e.alldayAdjust.when = (combine (dtDate e.dtstart) 0,
      some ((if d - d / DAY * DAY ≠ 0 ∨ d / DAY = 0 then d / DAY + 1 else d / DAY) * DAY), e.recurrence) := by
    unfold Event.when Event.alldayAdjust
    simp only [hd]
  refine ⟨_, ?_, ?_, ?_, h⟩
  all_goals
    have hD : (DAY : Int) = 86400000000 := rfl
    rw [hD]
    split <;> omega

/-- The times stay safe when the event is made to last whole days. -/
def StaysFine (e : Event) : Prop := FineWhen e.when ∧ FineWhen e.alldayAdjust.when

theorem StaysFine.of_when {e e' : Event} (h : StaysFine e) (hw : e'.when = e.when) : StaysFine e' := by
  have h2 : e'.alldayAdjust.when = e.alldayAdjust.when := by
    unfold Event.when at hw
    simp only [Prod.mk.injEq] at hw
    obtain ⟨h1, h2, h3⟩ := hw
    unfold Event.when Event.alldayAdjust
    simp only [h1, h2, h3]
  exact ⟨hw ▸ h.1, h2 ▸ h.2⟩

theorem StaysFine.adjust {e : Event} (h : StaysFine e) : StaysFine e.alldayAdjust := by
  obtain ⟨_, ⟨d, hd, h0, _⟩, _⟩ := h.1
  obtain ⟨k, hk, _, _, hw⟩ := alldayAdjust_when (e := e) hd h0
  have h2 := hw
  unfold Event.when at h2
  simp only [Prod.mk.injEq] at h2
  have hD : (DAY : Int) = 86400000000 := rfl
  obtain ⟨k', hk', h3, h4, hw'⟩ := alldayAdjust_when (e := e.alldayAdjust) h2.2.1
    (Int.mul_nonneg (by omega) (by rw [hD]; omega))
  have : k' = k := by rw [hD] at h3 h4; omega
  subst this
  have hm : combine (dtDate e.alldayAdjust.dtstart) 0 = e.alldayAdjust.dtstart := by
    rw [h2.1, dtDate_midnight]
  refine ⟨h.2, ?_⟩
  rw [hw', hm, ← h2.2.1]
  exact h.2

theorem SafeSpec.fine {s : Spec} (h : SafeSpec s) {e : Event}
    (hw : e.when = (s.dtstart, s.duration, s.recurrence)) : StaysFine e := by
  obtain ⟨d, hd, h0, hr, hl⟩ := h.dur
  have hs := h.start
  have hw' := hw
  unfold Event.when at hw'
  simp only [Prod.mk.injEq] at hw'
  obtain ⟨w1, w2, w3⟩ := hw'
  have hD : (DAY : Int) = 86400000000 := rfl
  have hm : (MAXORD : Int) = 3652059 := rfl
  obtain ⟨k, hk, k1, k2, ha⟩ := alldayAdjust_when (e := e) (w2.trans hd) h0
  have hc : s.dtstart = combine (dtDate s.dtstart) (dtTime s.dtstart) := (combine_dt _).symm
  have ht := dtTime_range s.dtstart
  have hdm : dtDate (combine (dtDate s.dtstart) 0) = dtDate s.dtstart := dtDate_midnight _
  rw [dtInRange_iff, hm, hD] at hs hr
  rw [hD] at k1 k2 ht
  unfold combine at hc
  rw [hD] at hc
  refine ⟨?_, ?_⟩
  · rw [hw]
    refine ⟨h.start, ⟨d, hd, h0, ?_, hl⟩, h.rule⟩
    rw [dtInRange_iff, hm, hD]
    omega
  · rw [ha, w1, w3]
    refine ⟨?_, ⟨k * DAY, rfl, by rw [hD]; omega, ?_, fun hn => ?_⟩, ?_⟩
    · rw [dtInRange_iff, hm, hD]
      unfold combine
      rw [hD]
      omega
    · rw [dtInRange_iff, hm, hD]
      unfold combine
      rw [hD]
      omega
    · have := hl hn
      rw [hD] at this ⊢
      omega
    · intro r hr
      simp only [hdm]
      exact h.rule r hr

theorem keepsFine : Keeps SafeSpec StaysFine where
  new uid spec e hA h := by
    obtain ⟨e0, he0, h⟩ := newEvent_when h
    have : StaysFine e0 := hA.fine (by rw [← he0]; exact setOnObject_when _ _)
    rcases h with rfl | rfl
    · exact this
    · exact this.adjust
  edit spec e hA _ := hA.fine (setOnObject_when _ _)
  status e a st h := h.of_when (setStatus_when e a st)
  role e a r h := h.of_when (setRole_when e a r)
  invite e l h := h.of_when (invite_when e l)
  allday e h := h.adjust

theorem FineWhen.safe {e : Event} (h : FineWhen e.when) : Safe e := by
  obtain ⟨h1, ⟨d, h2, _, h3, h4⟩, h5⟩ := h
  exact ⟨h1, ⟨d, h2, h3, h4⟩, h5⟩

/-- C79: in every history whose calls give or import safe specifications only, every query for occurrences,
blocked or free periods up to the year 2100 returns, whatever else happened; all stored events meet the
conditions of the theorems on queries.  Missing: other specifications, for which it is false (C59). -/
theorem C79_careful_partial (id host : String) (ops : List Op) (hops : ∀ op ∈ ops, op.Uses SafeSpec)
    (b e : Int) (hb : dtInRange b = true) (hr : dtInRange e = true) (hy : dyear (dtDate e) ≤ 2100) :
    (∀ ev, Stored ((freshWorld id host).run ops).store ev → Regular ev) ∧
    NoNegative ((freshWorld id host).run ops).store ∧
    (∀ c, ∃ l, ((freshWorld id host).run ops).store.getOccurrences (some b) (some e) c = .ok l) ∧
    (dtDate b ≤ dtDate e → 2 ≤ dtDate e → ∀ atts tb te,
      (∃ R, ((freshWorld id host).run ops).store.getBlockedPeriods atts b e tb te = .ok R) ∧
      ∀ md, ∃ F, ((freshWorld id host).run ops).store.getFreePeriods atts b e tb te md = .ok F) := by
  have hall := run_all keepsFine id host ops hops
  have hwf := run_wf id host ops
  have hsafe : ∀ ev, Stored ((freshWorld id host).run ops).store ev → Safe ev :=
    fun ev hev => (hall _ _ hev).1.safe
  refine ⟨fun ev hev => ⟨(hsafe ev hev).start, fun r hr => ?_⟩, fun ev hev d hd => ?_, fun c => ?_, ?_⟩
  · have := (hsafe ev hev).rule r hr
    exact ⟨this.1, this.2.1⟩
  · obtain ⟨_, ⟨d', hd', h0, _⟩, _⟩ := (hall _ _ hev).1
    have : some d = some d' := hd.symm.trans hd'
    injection this with this
    omega
  · exact C59_queries_return_partial _ hwf hsafe b e hr hy c
  · intro h1 h2 atts tb te
    exact C59_blocked_return_partial _ hwf hsafe atts b e tb te hb hr h1 h2 hy

/-- C79: which imported components are safe: start, duration and end in range, and an RRULE, if any, with
INTERVAL, if any, in 1..7800, and UNTIL, if any, a date, on a start other than 29 February or in December 9999. -/
theorem C79_import_partial (tz : LocalTz) (c : Calendar) (src : Source) (v : VEvent) (spec : Spec)
    (h : importSpec tz c src v = .ok spec) (x d : Int) (al : Bool)
    (ht : getDtstartDuration tz v = .ok (x, d, al)) (hx : dtInRange x = true) (hd : 0 ≤ d)
    (he : dtInRange (x + d + DAY) = true)
    (hr : ∀ rr, v.rrule = some rr → d ≤ 2800000 * DAY ∧ (∀ t l, rr.untl ≠ some (.datetime t :: l)) ∧
      (∀ i l, rr.interval = some (i :: l) → 1 ≤ i ∧ i ≤ 7800) ∧
      ¬ IsFeb29 (dtDate x) ∧ ¬ InLastMonth (dtDate x)) : SafeSpec spec := by
  unfold importSpec at h
  rw [ht] at h
  simp only [bind_ok, ok_bind] at h
  obtain ⟨_, _, r, hrule, h⟩ := h
  injection h with h; subst h
  have hrec : ∀ r', r = some r' → ∃ rr, v.rrule = some rr ∧ getRecurrenceRule rr = .ok r' := by
    intro r' hr'
    unfold importRule at hrule
    cases hv : v.rrule with
    | none => rw [hv] at hrule; injection hrule with hrule; rw [← hrule] at hr'; cases hr'
    | some rr =>
      rw [hv] at hrule
      simp only [bind_ok] at hrule
      obtain ⟨r0, h0, hrule⟩ := hrule
      injection hrule with hrule
      rw [← hrule] at hr'; injection hr' with hr'
      exact ⟨rr, rfl, hr' ▸ h0⟩
  refine ⟨hx, ⟨d, rfl, hd, he, fun hn => ?_⟩, fun r' hr' => ?_⟩
  · cases hr' : r with
    | none => exact absurd hr' hn
    | some r' =>
      obtain ⟨rr, h1, _⟩ := hrec r' hr'
      exact (hr rr h1).1
  · obtain ⟨rr, h1, h2⟩ := hrec r' hr'
    obtain ⟨_, k2, k3, k4, k5⟩ := hr rr h1
    unfold getRecurrenceRule at h2
    split at h2
    · cases h2
    · simp only [bind_ok] at h2
      obtain ⟨r0, h0, iv, i1, ct, i2, u, i3, h2⟩ := h2
      injection h2 with h2
      obtain ⟨_, e1, _, e3⟩ := ruleOfFreq_valid h0
      have hu : UntilIsDate r' := by
        intro x hx'
        rw [← h2] at hx'
        simp only [e3, Option.or_none] at hx'
        cases hul : rr.untl with
        | none => rw [hul] at i3; injection i3 with i3; subst i3; cases hx'
        | some l =>
          cases l with
          | nil => rw [hul] at i3; cases i3
          | cons w l =>
            rw [hul] at i3; injection i3 with i3; subst i3
            injection hx' with hx'
            exact k2 x l (by rw [hul, hx'])
      have hint : 1 ≤ r'.interval ∧ r'.interval ≤ 7800 := by
        rw [← h2]
        simp only []
        cases hiv : rr.interval with
        | none => rw [hiv] at i1; injection i1 with i1; subst i1; simp [e1]
        | some l =>
          cases l with
          | nil => rw [hiv] at i1; cases i1
          | cons i l =>
            rw [hiv] at i1; injection i1 with i1; subst i1
            simpa using k3 i l hiv
      exact ⟨hint.1, hu, hint.2, fun _ => k4, fun _ hf => absurd hf k4, fun _ => k5⟩

/-- C79, concrete: a careful history with a recurring event, an edit, an all-day adjustment, an import and a
deletion. -/
example : ∃ ops : List Op, (∀ op ∈ ops, op.Uses SafeSpec) ∧
    ((freshWorld "st" "host").run ops).store.events.map (fun p => (p.1, p.2.duration)) =
      [("w", some DAY), ("i", some Sample.HOUR)] := by
  refine ⟨[.create 0 (some "w") { dtstart := Sample.day + 9 * Sample.HOUR, duration := some Sample.HOUR, recurrence := some ⟨.weekly [0, 2], 1, some 5, none, []⟩ },
    .create 0 (some "x") { dtstart := Sample.day, duration := some 0 }, .delete "x", .alldayAdjust "w",
    .import_ (fun _ => 0) [("alice", ())] [("alice", ⟨"Alice", "INDIVIDUAL"⟩)]
        [{ uid := some "i", dtstart := some (.naive Sample.day), duration := some Sample.HOUR,
           rrule := some { freq := some "WEEKLY", interval := some [2] } }] none none none false], ?_, by decide +kernel⟩
  intro op hop
  simp only [List.mem_cons, List.not_mem_nil, or_false] at hop
  rcases hop with rfl | rfl | rfl | rfl | rfl
  · refine ⟨by decide, ⟨_, rfl, by decide, by decide, fun _ => by decide⟩, fun r hr => ?_⟩
    injection hr with hr; subst hr
    exact ⟨by decide, nofun, by decide, nofun, nofun, nofun⟩
  · exact ⟨by decide, ⟨_, rfl, by decide, by decide, fun h => absurd rfl h⟩, nofun⟩
  · trivial
  · trivial
  · intro v hv spec hs
    rw [List.mem_singleton] at hv
    subst hv
    exact C79_import_partial _ _ _ _ spec hs Sample.day Sample.HOUR false rfl (by decide) (by decide) (by decide) (fun rr hrr => by
      injection hrr with hrr; subst hrr
      exact ⟨by decide, nofun, fun i l h => by injection h with h; injection h with h _; subst h; decide,
        fun h => absurd h.1 (by decide +kernel), fun h => absurd h.1 (by decide +kernel)⟩)

end CalCore
