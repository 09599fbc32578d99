import Verif.Lemmas.ImportMany
import Verif.Lemmas.Participation
import Verif.Props.Samples
/- Properties C45 (all-day events), C55 (comparison) and C56 (roundtimedelta). -/
namespace CalCore
open Spec

/-! ### C45 -/

/-- `k` is the least whole number of days, at least one, that is not shorter than `d` (if given). -/
def Spec.LeastDays (d : Option Int) (k : Int) : Prop :=
  1 ≤ k ∧ (∀ x, d = some x → x ≤ k * DAY) ∧ ∀ k', 1 ≤ k' → (∀ x, d = some x → x ≤ k' * DAY) → k ≤ k'

/-- The duration is None or not negative. -/
def Spec.NonNeg (d : Option Int) : Prop := ∀ x, d = some x → 0 ≤ x

/-- Midnight at the beginning of the day of `t`. -/
def Spec.IsMidnightOf (m t : Int) : Prop := m % DAY = 0 ∧ m ≤ t ∧ t < m + DAY

theorem alldayAdjust_spec (e : Event) (hd : NonNeg e.duration) :
    IsMidnightOf e.alldayAdjust.dtstart e.dtstart ∧
      ∃ k, LeastDays e.duration k ∧ e.alldayAdjust.duration = some (k * DAY) := by
  unfold Event.alldayAdjust
  refine ⟨?_, ?_⟩
  · simp only []
    unfold IsMidnightOf combine dtDate DAY
    omega
  · cases h : e.duration with
    | none => exact ⟨1, ⟨by omega, by simp, fun k' hk _ => hk⟩, by simp⟩
    | some d =>
      have h0 := hd d h
      refine ⟨_, ⟨?_, ?_, ?_⟩, rfl⟩
      · unfold DAY; split <;> omega
      · intro x hx
        injection hx with hx
        subst hx
        unfold DAY; split <;> omega
      · intro k' hk hx
        have := hx d rfl
        unfold DAY at this ⊢; split <;> omega

theorem newEvent_allday {uid : Uid} {s : Spec} {e : Event} (h : newEvent uid s = .ok e) :
    e.allday = s.allday ∧
      if s.allday then IsMidnightOf e.dtstart s.dtstart ∧ (NonNeg s.duration → ∃ k, LeastDays s.duration k ∧
        e.duration = some (k * DAY)) else e.dtstart = s.dtstart ∧ e.duration = s.duration := by
  unfold newEvent at h
  cases hs : s.setOnObject (blankEvent uid) with
  | mk e' r =>
    rw [hs] at h
    cases r with
    | error f => cases h
    | ok x =>
      have hsame := setAttendeesLoop_same s.attendees (s.setOrganizer (s.setAttrs (blankEvent uid)))
      have hs' : (setAttendeesLoop (s.setOrganizer (s.setAttrs (blankEvent uid))) s.attendees).1 = e' :=
        congrArg Prod.fst hs
      rw [hs'] at hsame
      have hattr : e'.allday = s.allday ∧ e'.dtstart = s.dtstart ∧ e'.duration = s.duration := by
        have h1 : (s.setOrganizer (s.setAttrs (blankEvent uid))).allday = s.allday ∧
            (s.setOrganizer (s.setAttrs (blankEvent uid))).dtstart = s.dtstart ∧
            (s.setOrganizer (s.setAttrs (blankEvent uid))).duration = s.duration := by
          unfold Spec.setOrganizer
          cases s.organizer <;> exact ⟨rfl, rfl, rfl⟩
        unfold SameButParticipation at hsame
        rw [← hsame] at h1
        exact h1
      obtain ⟨h1, h2, h3⟩ := hattr
      injection h with h
      rw [h1] at h
      cases ha : s.allday with
      | false =>
        rw [ha] at h
        simp only [Bool.false_eq_true, if_false] at h ⊢
        subst h
        exact ⟨by rw [h1, ha], h2, h3⟩
      | true =>
        rw [ha] at h
        simp only [if_true] at h ⊢
        subst h
        have hm : IsMidnightOf e'.alldayAdjust.dtstart e'.dtstart := by
          unfold Event.alldayAdjust
          simp only []
          unfold IsMidnightOf combine dtDate DAY
          omega
        refine ⟨by show e'.allday = true; rw [h1, ha], by rw [h2] at hm; exact hm, fun hd => ?_⟩
        have := (alldayAdjust_spec e' (by rw [h3]; exact hd)).2
        rw [h3] at this
        exact this

/-- C45: an event created with allday=True and a duration that is None or not negative starts at midnight of
its start day and lasts the least number of days that is at least one and covers the duration; the
adjustment is idempotent.  Missing: negative durations, for which it is false
(`C45_negative_counterexample`). -/
theorem C45_create_partial (uid : Uid) (s : Spec) (e : Event) (h : newEvent uid s = .ok e) (ha : s.allday = true)
    (hd : NonNeg s.duration) :
    IsMidnightOf e.dtstart s.dtstart ∧ (∃ k, LeastDays s.duration k ∧ e.duration = some (k * DAY)) ∧
      e.alldayAdjust = e := by
  have h0 := (newEvent_allday h).2
  rw [if_pos ha] at h0
  obtain ⟨hm, hk⟩ := h0
  obtain ⟨k, hk, hdur⟩ := hk hd
  refine ⟨hm, ⟨k, hk, hdur⟩, ?_⟩
  unfold Event.alldayAdjust
  rw [hdur]
  have hs : combine (dtDate e.dtstart) 0 = e.dtstart := by
    have := hm.1
    unfold combine dtDate DAY at *
    omega
  have hk1 := hk.1
  have hd2 : ∀ x : Int, x = k * DAY → (if x - x / DAY * DAY ≠ 0 ∨ x / DAY = 0 then x / DAY + 1 else x / DAY) * DAY = x := by
    intro x hx
    unfold DAY at hx ⊢
    split <;> omega
  simp only []
  rw [hs, hd2 _ rfl, ← hdur]

/-- C45 for the adjustment itself: it is idempotent on every event with a duration that is None or not
negative. -/
theorem C45_idempotent_partial (e : Event) (hd : NonNeg e.duration) :
    e.alldayAdjust.alldayAdjust = e.alldayAdjust := by
  obtain ⟨hm, k, hk, hdur⟩ := alldayAdjust_spec e hd
  have hk1 := hk.1
  have hs : combine (dtDate e.alldayAdjust.dtstart) 0 = e.alldayAdjust.dtstart := by
    have := hm.1
    unfold combine dtDate DAY at *
    omega
  generalize e.alldayAdjust = e' at *
  unfold Event.alldayAdjust
  rw [hdur]
  have hd2 : ∀ x : Int, x = k * DAY → (if x - x / DAY * DAY ≠ 0 ∨ x / DAY = 0 then x / DAY + 1 else x / DAY) * DAY = x := by
    intro x hx
    unfold DAY at hx ⊢
    split <;> omega
  simp only []
  rw [hs, hd2 _ rfl, ← hdur]

/-- C45 is false for negative durations: minus half a day gives zero days (and adjusting again gives one),
minus one day stays minus one day. -/
theorem C45_negative_counterexample :
    (newEvent "z" { dtstart := Sample.day, duration := some (-43200000000), allday := true }).map
      (fun e => (e.duration, e.alldayAdjust.duration)) = .ok (some 0, some DAY) ∧
    (newEvent "z" { dtstart := Sample.day, duration := some (-DAY), allday := true }).map (·.duration)
      = .ok (some (-DAY)) := by decide +kernel

/-- C45, concrete: from 10:00 for 30 hours becomes two days from midnight. -/
example : (newEvent "z" { dtstart := Sample.day + 10 * Sample.HOUR, duration := some (30 * Sample.HOUR), allday := true }).map
    (fun e => (e.dtstart, e.duration)) = .ok (Sample.day, some (2 * DAY)) := by decide +kernel

/-- The event, if all-day, starts at midnight and lasts whole days, at least one. -/
def Spec.WholeDays (e : Event) : Prop :=
  e.allday = true → e.dtstart % DAY = 0 ∧ ∃ k, 1 ≤ k ∧ e.duration = some (k * DAY)

/-- The same of a specification. -/
def Spec.WholeDaysSpec (s : Spec) : Prop :=
  s.allday = true → s.dtstart % DAY = 0 ∧ ∃ k, 1 ≤ k ∧ s.duration = some (k * DAY)

/-- A DATE start comes with a later DATE end, or with a DURATION of whole days. -/
def Spec.ProperAllday (v : VEvent) : Prop :=
  ∀ d, v.dtstart = some (.date d) →
    (∃ d', v.dtend = some (.date d') ∧ d < d') ∨ (v.dtend = none ∧ ∃ k, 1 ≤ k ∧ v.duration = some (k * DAY))

/-- A call that gives all-day events proper data: no negative duration when creating, whole days when
editing or importing. -/
def Spec.AlldayOp : Op → Prop
  | .create _ _ s => s.allday = true → NonNeg s.duration
  | .attendeeCreate _ _ s => s.allday = true → NonNeg s.duration
  | .edit _ s => WholeDaysSpec s
  | .import_ _ _ _ vs _ _ _ _ => ∀ v ∈ vs, ProperAllday v
  | _ => True

theorem newEvent_wholeDays {uid : Uid} {s : Spec} {e : Event} (h : newEvent uid s = .ok e)
    (hs : s.allday = true → NonNeg s.duration) : WholeDays e := by
  intro ha
  obtain ⟨h1, h2⟩ := newEvent_allday h
  have ha' : s.allday = true := by rw [← h1]; exact ha
  rw [if_pos ha'] at h2
  obtain ⟨k, hk, hd⟩ := h2.2 (hs ha')
  exact ⟨h2.1.1, k, hk.1, hd⟩

theorem setOnObject_attrs (s : Spec) (e : Event) :
    (s.setOnObject e).1.allday = s.allday ∧ (s.setOnObject e).1.dtstart = s.dtstart ∧
      (s.setOnObject e).1.duration = s.duration := by
  have hsame := setAttendeesLoop_same s.attendees (s.setOrganizer (s.setAttrs e))
  have h1 : (s.setOrganizer (s.setAttrs e)).allday = s.allday ∧
      (s.setOrganizer (s.setAttrs e)).dtstart = s.dtstart ∧
      (s.setOrganizer (s.setAttrs e)).duration = s.duration := by
    unfold Spec.setOrganizer
    cases s.organizer <;> exact ⟨rfl, rfl, rfl⟩
  unfold SameButParticipation at hsame
  rw [← hsame] at h1
  exact h1

theorem setOnObject_wholeDays {s : Spec} (hs : WholeDaysSpec s) (e : Event) : WholeDays (s.setOnObject e).1 := by
  intro ha
  obtain ⟨h1, h2, h3⟩ := setOnObject_attrs s e
  rw [h1] at ha
  rw [h2, h3]
  exact hs ha

theorem same_wholeDays {e e' : Event} (h : SameButParticipation e e') (he : WholeDays e) : WholeDays e' := by
  unfold SameButParticipation at h
  rw [← h] at he
  exact he

theorem setStatus_same (e : Event) (a : AttId) (st : Option String) : SameButParticipation e (e.setStatus a st).1 := by
  unfold Event.setStatus
  split
  · rfl
  · simp only []
    split
    · rfl
    · have hraw : SameButParticipation e (e.setStatusRaw a st).1 := by
        unfold Event.setStatusRaw
        cases st with
        | none =>
          simp only []
          split
          · split <;> rfl
          · rfl
        | some s => rfl
      split
      · rename_i h'; rw [h'] at hraw; exact hraw
      · rename_i h'; rw [h'] at hraw; exact hraw

theorem SameButParticipation.trans' {a b c : Event} (h : SameButParticipation a b) (h' : SameButParticipation b c) :
    SameButParticipation a c := by
  unfold SameButParticipation at *
  cases a; cases b; cases c
  simp only [Event.mk.injEq] at *
  grind

theorem invite_same (e : Event) (l : List AttId) : SameButParticipation e (e.invite l).1 := by
  induction l generalizing e with
  | nil => rfl
  | cons a rest ih =>
    rw [invite_cons]
    refine SameButParticipation.trans' (b := (e.inviteOne a).1) ?_ (ih _)
    rw [inviteOne_eq]
    split <;> rfl

theorem importSpec_wholeDays {tz : LocalTz} {c : Calendar} {src : Source} {v : VEvent} {s : Spec}
    (h : importSpec tz c src v = .ok s) (hv : ProperAllday v) : WholeDaysSpec s := by
  unfold importSpec at h
  simp only [bind_ok] at h
  obtain ⟨⟨x, dur, ad⟩, h1, org, _, rec_, _, h4⟩ := h
  injection h4 with h4
  subst h4
  intro ha
  simp only [] at ha ⊢
  subst ha
  unfold getDtstartDuration at h1
  cases hd : v.dtstart with
  | none => rw [hd] at h1; cases h1
  | some st =>
    rw [hd] at h1
    simp only [bind_ok] at h1
    obtain ⟨⟨x', ad'⟩, hst, h1⟩ := h1
    have hdate : ∃ d, st = .date d ∧ x' = combine d 0 ∧ ad' = true ∨ ad' = false := by
      cases st with
      | date d => simp only [importStart] at hst; injection hst with hst; injection hst with h5 h6; exact ⟨d, Or.inl ⟨rfl, h5.symm, h6.symm⟩⟩
      | naive t =>
        simp only [importStart, bind_ok] at hst; obtain ⟨y, _, hst⟩ := hst; injection hst with hst; injection hst with _ h6
        exact ⟨0, Or.inr h6.symm⟩
      | aware t o =>
        simp only [importStart, bind_ok] at hst; obtain ⟨y, _, hst⟩ := hst; injection hst with hst; injection hst with _ h6
        exact ⟨0, Or.inr h6.symm⟩
    obtain ⟨d, ⟨rfl, rfl, rfl⟩ | rfl⟩ := hdate
    · rcases hv d hd with ⟨d', he, hlt⟩ | ⟨he, k, hk, hdur⟩
      · rw [he] at h1
        simp only [importEnd, ok_bind] at h1
        injection h1 with h1
        injection h1 with h5 h6
        injection h6 with h6 _
        subst h5 h6
        refine ⟨by unfold combine DAY; omega, d' - d, by omega, ?_⟩
        unfold combine DAY
        congr 1
        omega
      · rw [he, hdur] at h1
        simp only [] at h1
        injection h1 with h1
        injection h1 with h5 h6
        injection h6 with h6 _
        subst h5 h6
        exact ⟨by unfold combine DAY; omega, k, hk, rfl⟩
    · exfalso
      cases hde : v.dtend with
      | some en =>
        rw [hde] at h1
        simp only [bind_ok] at h1
        obtain ⟨y, _, h1⟩ := h1
        injection h1 with h1; injection h1 with _ h6; injection h6 with _ h6; cases h6
      | none =>
        rw [hde] at h1
        simp only [] at h1
        cases hdu : v.duration with
        | some du =>
          rw [hdu] at h1
          simp only [] at h1
          injection h1 with h1; injection h1 with _ h6; injection h6 with _ h6; cases h6
        | none =>
          rw [hdu] at h1
          simp only [] at h1
          injection h1 with h1; injection h1 with _ h6; injection h6 with _ h6; cases h6

theorem wholeDays_nonNeg {s : Spec} (h : WholeDaysSpec s) : s.allday = true → NonNeg s.duration := by
  intro ha x hx
  obtain ⟨_, k, hk, hd⟩ := h ha
  rw [hd] at hx
  injection hx with hx
  subst hx
  unfold DAY
  omega

/-- C45: in every history, imports included, in which all-day data are whole days (no negative duration when
creating), every all-day event in the store starts at midnight and lasts whole days, at least one.  Missing:
arbitrary imports, for which it is false (`C45_import_counterexample`: a DATE event without end, imported
twice), and `setOnObject` with other data. -/
theorem C45_stays_partial (id host : String) (ops : List Op) (hops : ∀ op ∈ ops, AlldayOp op) (u : Uid) (e : Event)
    (he : ((freshWorld id host).run ops).store.getEvent u = .ok e) : WholeDays e := by
  have hon : ∀ (w : World) (u : Uid) (f : Event → Event × List Note × Res Unit),
      (∀ k e, Dict.get? w.store.events k = some e → WholeDays e) →
      (∀ e, WholeDays e → WholeDays (f e).1) →
      ∀ k e, Dict.get? (w.onEvent u f).1.store.events k = some e → WholeDays e := by
    intro w u f hw hf k e hk
    unfold World.onEvent at hk
    cases hg : w.store.getEvent u with
    | error x => rw [hg] at hk; exact hw k e hk
    | ok e0 =>
      rw [hg] at hk
      have hge := Storage.getEvent_ok.1 hg
      simp only [Dict.get?_set] at hk
      split at hk
      · injection hk with hk; rw [← hk]; exact hf e0 (hw u e0 hge)
      · exact hw k e hk
  have hcreate : ∀ (w : World) (now : Int) (uid : Option Uid) (spec : Spec),
      (∀ k e, Dict.get? w.store.events k = some e → WholeDays e) → (spec.allday = true → NonNeg spec.duration) →
      ∀ k e, Dict.get? (w.createEvent now uid spec).1.store.events k = some e → WholeDays e := by
    intro w now uid spec hw hs k e hk
    rcases w.createEvent_eq now uid spec with ⟨f, _, h'⟩ | ⟨e0, hn, _, h'⟩
    · rw [h'] at hk; exact hw k e hk
    · rw [h'] at hk
      simp only [Dict.get?_set] at hk
      split at hk
      · injection hk with hk; rw [← hk]; exact newEvent_wholeDays hn hs
      · exact hw k e hk
  have key : ∀ (ops : List Op) (w : World), (∀ k e, Dict.get? w.store.events k = some e → WholeDays e) →
      (∀ op ∈ ops, AlldayOp op) → ∀ k e, Dict.get? (w.run ops).store.events k = some e → WholeDays e := by
    intro ops
    induction ops with
    | nil => intro w hw _; exact hw
    | cons op rest ih =>
      intro w hw hop
      refine ih _ ?_ (fun x hx => hop x (List.mem_cons_of_mem _ hx))
      have hp := hop op (List.mem_cons_self ..)
      cases op with
      | create now uid spec => exact hcreate w now uid spec hw hp
      | attendeeCreate now a spec => exact hcreate w now none _ hw hp
      | delete uid =>
        intro k e hk
        unfold World.step at hk
        simp only [] at hk
        cases hg : w.store.getEvent uid with
        | error x => rw [hg] at hk; exact hw k e hk
        | ok e0 =>
          rw [hg] at hk
          simp only [] at hk
          rcases w.deleteEvent_eq e0.uid with ⟨_, h'⟩ | ⟨_, h'⟩
          · rw [h'] at hk; exact hw k e hk
          · rw [h'] at hk
            simp only [Dict.get?_del] at hk
            split at hk
            · cases hk
            · exact hw k e hk
      | setStatus uid a st => exact hon w uid _ hw (fun e he => same_wholeDays (setStatus_same e a st) he)
      | setRole uid a role =>
        refine hon w uid _ hw (fun e he => same_wholeDays ?_ he)
        unfold Event.setRole
        split <;> rfl
      | invite uid atts => exact hon w uid _ hw (fun e he => same_wholeDays (invite_same e atts) he)
      | alldayAdjust uid =>
        refine hon w uid _ hw (fun e he => ?_)
        intro ha
        obtain ⟨_, k, hk, hd⟩ := he ha
        have hnn : NonNeg e.duration := by
          intro x hx; rw [hd] at hx; injection hx with hx; subst hx; unfold DAY; omega
        obtain ⟨hm, k', hk', hd'⟩ := alldayAdjust_spec e hnn
        exact ⟨hm.1, k', hk'.1, hd'⟩
      | edit uid spec => exact hon w uid _ hw (fun e he => setOnObject_wholeDays hp e)
      | import_ tz c src vs b e cr sync =>
        have hm := w.import_importMany (Q := WholeDaysSpec) (fun _ => .ok (some vs)) tz c src [] b e cr sync (by
          intro vs' hvs v hv spec hspec
          injection hvs with hvs
          injection hvs with hvs
          subst hvs
          exact importSpec_wholeDays hspec (hp v hv))
        refine hm.preserves (P := fun w => ∀ k e, Dict.get? w.store.events k = some e → WholeDays e) ?_ hw
        intro w w' hs hw k e' hk
        cases hs with
        | create uid spec e hq he =>
          simp only [Dict.get?_set] at hk
          split at hk
          · injection hk with hk; subst hk; exact newEvent_wholeDays he (wholeDays_nonNeg hq)
          · exact hw k e' hk
        | update uid e spec notes hq hg hn =>
          simp only [Dict.get?_set] at hk
          split at hk
          · injection hk with hk; subst hk; exact setOnObject_wholeDays hq _
          · exact hw k e' hk
        | delete uid hh =>
          simp only [Dict.get?_del] at hk
          split at hk
          · cases hk
          · exact hw k e' hk
  exact key ops _ (by simp [freshWorld]) hops u e (Storage.getEvent_ok.1 he)

/-- A calendar with one attendee. -/
def Sample.cal : Calendar := [("alice", ())]
/-- The attendees known to the source. -/
def Sample.src : Source := [("alice", ⟨"Alice", "INDIVIDUAL"⟩), ("bob", ⟨"Bob", "INDIVIDUAL"⟩)]
/-- A birthday: DATE start, no end. -/
def Sample.birthday : VEvent := { uid := some "b", dtstart := some (.date (ymd2ord 2026 3 2)), summary := some "birthday" }
/-- Import without period and criteria. -/
def Sample.imp (vs : List VEvent) (sync : Bool) : Op :=
  .import_ (fun _ => 0) Sample.cal Sample.src vs none none none sync

/-- C45 is false for imports: a birthday imported twice loses its day. -/
theorem C45_import_counterexample :
    let w := (freshWorld "st" "host").run [Sample.imp [Sample.birthday] false]
    let w' := w.run [Sample.imp [Sample.birthday] false]
    (w.store.getEvent "b").map (fun e => (e.allday, e.duration)) = .ok (true, some DAY) ∧
    (w'.store.getEvent "b").map (fun e => (e.allday, e.duration)) = .ok (true, some 0) := by decide +kernel

/-- C45, concrete: with an end, the birthday survives. -/
example : AlldayOp (Sample.imp [{ Sample.birthday with dtend := some (.date (ymd2ord 2026 3 3)) }] true) := by
  intro v hv
  rw [List.mem_singleton] at hv
  subst hv
  intro d hd
  injection hd with hd
  injection hd with hd
  subst hd
  exact Or.inl ⟨_, rfl, by decide⟩

/-! ### C55 -/

/-- C55: comparison is the comparison of the starts: it is a total preorder, and an order on events with
different starts.  Missing: the order by unique_id of events with the same start, for which it is false
(`C55_uid_counterexample`: the code compares `self.unique_id` with itself).  `cmpStr` is Python's `cmp` on
strings; only that equal strings compare equal is used. -/
theorem C55_cmp_partial (cmpStr : String → String → Int) (hc : ∀ s, cmpStr s s = 0) (e f g : Event) :
    (e.cmp f cmpStr < 0 ↔ e.dtstart < f.dtstart) ∧ (e.cmp f cmpStr > 0 ↔ e.dtstart > f.dtstart) ∧
    (e.cmp f cmpStr = 0 ↔ e.dtstart = f.dtstart) ∧ e.cmp f cmpStr = - f.cmp e cmpStr ∧
    (e.cmp f cmpStr ≤ 0 → f.cmp g cmpStr ≤ 0 → e.cmp g cmpStr ≤ 0) := by
  have key : ∀ x y : Event, x.cmp y cmpStr = pyCmp x.dtstart y.dtstart := by
    intro x y
    unfold Event.cmp
    simp only [hc]
    split
    · rfl
    · rename_i h; rw [not_not] at h; exact h.symm
  simp only [key]
  unfold pyCmp
  refine ⟨?_, ?_, ?_, ?_, ?_⟩ <;> (repeat' split) <;> omega

/-- C55 is false: two different events with the same start compare equal. -/
theorem C55_uid_counterexample (cmpStr : String → String → Int) (hc : ∀ s, cmpStr s s = 0) :
    (blankEvent "a").uid ≠ (blankEvent "b").uid ∧ (blankEvent "a").cmp (blankEvent "b") cmpStr = 0 := by
  refine ⟨by decide, ?_⟩
  unfold Event.cmp
  simp only [hc]
  rfl

/-- C55, concrete. -/
example : ({ blankEvent "b" with dtstart := 1 } : Event).cmp { blankEvent "a" with dtstart := 2 } (fun _ _ => 0) = -1 := by
  decide +kernel

/-! ### C56 -/

/-- C56: `roundtimedelta` rounds up to whole days. -/
theorem C56_round (td : Int) :
    (∃ k, roundtimedelta td = k * DAY) ∧ td ≤ roundtimedelta td ∧ roundtimedelta td < td + DAY ∧
      ∀ k, roundtimedelta (k * DAY) = k * DAY := by
  unfold roundtimedelta
  refine ⟨?_, ?_, ?_, ?_⟩
  · split
    · exact ⟨_, rfl⟩
    · exact ⟨td / DAY, by unfold DAY at *; omega⟩
  · unfold DAY; split <;> omega
  · unfold DAY; split <;> omega
  · intro k; unfold DAY; split <;> omega

/-- C56: it is the least such number of days. -/
theorem C56_least (td k : Int) (h : td ≤ k * DAY) : roundtimedelta td ≤ k * DAY := by
  unfold roundtimedelta
  unfold DAY at *
  split <;> omega

/-- C56, concrete: minus one hour rounds to zero, 25 hours to two days. -/
example : roundtimedelta (-Sample.HOUR) = 0 ∧ roundtimedelta (25 * Sample.HOUR) = 2 * DAY := by decide

end CalCore
