import Verif.Props.Blocked
/- Property C118: blocked and free periods depend on nothing but the busy time. -/
namespace CalCore
open Spec

/-- The two groups are busy at the same times, as far as the period and the window go. -/
def SameBusy (s s' : Storage) (atts atts' : List AttId) (b en tb te : Int) : Prop :=
  ∀ t, b ≤ t → t < en → InWindow tb te t → ((∃ a ∈ atts, BusyAt s a t) ↔ ∃ a ∈ atts', BusyAt s' a t)

/-- C118: if two groups of attendees, of one storage or of two, are busy at the same times, the blocked periods that are not empty
are the same. -/
theorem C118_blocked (s s' : Storage) (hs : s.WF) (hs' : s'.WF) (hg : ∀ ev, Stored s ev → Regular ev)
    (hg' : ∀ ev, Stored s' ev → Regular ev) (atts atts' : List AttId) (b en tb te : Int) (htb : IsTime tb) (hte : IsTime te)
    (hsame : SameBusy s s' atts atts' b en tb te) (R R' : List (Int × Int))
    (h : s.getBlockedPeriods atts b en tb te = .ok R) (h' : s'.getBlockedPeriods atts' b en tb te = .ok R') :
    R.filter (fun p => decide (p.1 < p.2)) = R'.filter (fun p => decide (p.1 < p.2)) := by
  have hcov : ∀ (L : List (Int × Int)) t, Covered (L.filter (fun p => decide (p.1 < p.2))) t ↔ Covered L t := by
    intro L t
    constructor
    · rintro ⟨p, hp, hin⟩; exact ⟨p, (List.mem_filter.1 hp).1, hin⟩
    · rintro ⟨p, hp, h1, h2⟩
      exact ⟨p, List.mem_filter.2 ⟨hp, decide_eq_true (by omega)⟩, h1, h2⟩
  have hstrict : ∀ (L : List (Int × Int)), ∀ p ∈ L.filter (fun p => decide (p.1 < p.2)), p.1 < p.2 :=
    fun L p hp => of_decide_eq_true (List.mem_filter.1 hp).2
  refine separated_unique _ _ ((C25_separated s atts b en tb te R h).filter _) ((C25_separated s' atts' b en tb te R' h').filter _)
    (hstrict R) (hstrict R') (fun t => ?_)
  rw [hcov, hcov, blocked_everywhere s hs hg atts b en tb te htb hte R h t,
    blocked_everywhere s' hs' hg' atts' b en tb te htb hte R' h' t]
  constructor
  · rintro (h | ⟨h1, h2, h3, h4⟩)
    · exact Or.inl h
    · exact Or.inr ⟨h1, h2, h3, (hsame t h1 h2 h3).1 h4⟩
  · rintro (h | ⟨h1, h2, h3, h4⟩)
    · exact Or.inl h
    · exact Or.inr ⟨h1, h2, h3, (hsame t h1 h2 h3).2 h4⟩

/-- C118: the same time is free. -/
theorem C118_free (s s' : Storage) (hs : s.WF) (hs' : s'.WF) (hg : ∀ ev, Stored s ev → Regular ev)
    (hg' : ∀ ev, Stored s' ev → Regular ev) (hn : NoNegative s) (hn' : NoNegative s') (atts atts' : List AttId)
    (b en tb te : Int) (htb : IsTime tb) (hte : IsTime te) (hbe : b < en)
    (hsame : SameBusy s s' atts atts' b en tb te) (F F' : List (Int × Int))
    (h : s.getFreePeriods atts b en tb te none = .ok F) (h' : s'.getFreePeriods atts' b en tb te none = .ok F') (t : Int) :
    Covered F t ↔ Covered F' t := by
  rw [(C29_general s hs hg hn atts b en tb te htb hte hbe F h).1 t,
    (C29_general s' hs' hg' hn' atts' b en tb te htb hte hbe F' h').1 t]
  have key : InWindow tb te t → ((b ≤ t → t < en → ∀ a ∈ atts, ¬ BusyAt s a t) ↔ (b ≤ t → t < en → ∀ a ∈ atts', ¬ BusyAt s' a t)) := by
    intro hw
    constructor
    · intro h h1 h2 a ha hb
      obtain ⟨a', ha', hb'⟩ := (hsame t h1 h2 hw).2 ⟨a, ha, hb⟩
      exact h h1 h2 a' ha' hb'
    · intro h h1 h2 a ha hb
      obtain ⟨a', ha', hb'⟩ := (hsame t h1 h2 hw).1 ⟨a, ha, hb⟩
      exact h h1 h2 a' ha' hb'
  constructor
  · rintro ⟨h1, h2, h3, h4⟩; exact ⟨h1, h2, h3, (key h3).1 h4⟩
  · rintro ⟨h1, h2, h3, h4⟩; exact ⟨h1, h2, h3, (key h3).2 h4⟩

/-- C118: the same free periods are found, for every minimal duration, unless a blocked period is empty. -/
theorem C118_periods (s s' : Storage) (hs : s.WF) (hs' : s'.WF) (hg : ∀ ev, Stored s ev → Regular ev)
    (hg' : ∀ ev, Stored s' ev → Regular ev) (atts atts' : List AttId) (b en tb te : Int) (htb : IsTime tb) (hte : IsTime te)
    (hsame : SameBusy s s' atts atts' b en tb te) (R R' : List (Int × Int))
    (h : s.getBlockedPeriods atts b en tb te = .ok R) (h' : s'.getBlockedPeriods atts' b en tb te = .ok R')
    (hp : ∀ p ∈ R, p.1 < p.2) (hp' : ∀ p ∈ R', p.1 < p.2) (md : Option Int) :
    R = R' ∧ s.getFreePeriods atts b en tb te md = s'.getFreePeriods atts' b en tb te md := by
  have hk := C118_blocked s s' hs hs' hg hg' atts atts' b en tb te htb hte hsame R R' h h'
  rw [List.filter_eq_self.2 (fun p hq => decide_eq_true (hp p hq)), List.filter_eq_self.2 (fun p hq => decide_eq_true (hp' p hq))] at hk
  refine ⟨hk, ?_⟩
  unfold Storage.getFreePeriods
  rw [h, h', hk]

/-- One meeting from ten to twelve. -/
def oneMeeting : Storage := ((freshWorld "st" "host").run
  [.create 0 (some "m") { dtstart := Sample.day + 10 * Sample.HOUR, duration := some (2 * Sample.HOUR), organizer := some "alice" }]).store

/-- The same time in two parts, of which two people take one each. -/
def twoMeetings : Storage := ((freshWorld "st" "host").run
  [.create 0 (some "p") { dtstart := Sample.day + 11 * Sample.HOUR, duration := some Sample.HOUR, organizer := some "bob" },
   .create 0 (some "q") { dtstart := Sample.day + 10 * Sample.HOUR, duration := some Sample.HOUR, organizer := some "carol" }]).store

/-- The meeting and something that takes no time at two o'clock. -/
def withReminder : Storage := ((freshWorld "st" "host").run
  [.create 0 (some "m") { dtstart := Sample.day + 10 * Sample.HOUR, duration := some (2 * Sample.HOUR), organizer := some "alice" },
   .create 0 (some "r") { dtstart := Sample.day + 14 * Sample.HOUR, duration := some 0, organizer := some "alice" }]).store

theorem busy_by_list {s : Storage} (hs : s.WF) (hr : ∀ ev ∈ Dict.values s.events, ev.recurrence = none) (a : AttId) (t : Int) :
    BusyAt s a t ↔ ∃ ev ∈ Dict.values s.events, Attends ev a ∧ Blocking ev a ∧
      ∃ d, ev.duration = some d ∧ ev.dtstart ≤ t ∧ t < ev.dtstart + d := by
  unfold BusyAt OccursAt
  constructor
  · rintro ⟨ev, h1, h2, h3, x, d, h4, h5, h6⟩
    have hm := (hs.mem_values ev).2 h1
    unfold StartsAt at h4
    rw [hr ev hm] at h4
    simp only [] at h4
    subst h4
    exact ⟨ev, hm, h2, h3, d, h5, h6⟩
  · rintro ⟨ev, hm, h2, h3, d, h5, h6⟩
    refine ⟨ev, (hs.mem_values ev).1 hm, h2, h3, ev.dtstart, d, ?_, h5, h6⟩
    unfold StartsAt
    rw [hr ev hm]

theorem busy_examples_wf : oneMeeting.WF ∧ twoMeetings.WF ∧ withReminder.WF :=
  ⟨run_wf _ _ _, run_wf _ _ _, run_wf _ _ _⟩

/-- Alice is busy with the one meeting when Bob or Carol is with a part of it. -/
theorem sameBusy_example (b en tb te : Int) : SameBusy oneMeeting twoMeetings ["alice"] ["bob", "carol"] b en tb te := by
  intro t _ _ _
  obtain ⟨w1, w2, _⟩ := busy_examples_wf
  obtain ⟨m, hm, m1, m2, m3, m4⟩ : ∃ m, Dict.values oneMeeting.events = [m] ∧ m.recurrence = none ∧
      m.dtstart = Sample.day + 10 * Sample.HOUR ∧ m.duration = some (2 * Sample.HOUR) ∧
      (Dict.get? m.pstate "alice" = some "ACCEPTED" ∧ m.transparent = false ∧ m.status ≠ "CANCELED") :=
    ⟨_, rfl, by decide +kernel⟩
  obtain ⟨p, q, hpq, p1, q1, p2, q2, p3, q3, p4, q4⟩ : ∃ p q, Dict.values twoMeetings.events = [p, q] ∧
      p.recurrence = none ∧ q.recurrence = none ∧
      p.dtstart = Sample.day + 11 * Sample.HOUR ∧ q.dtstart = Sample.day + 10 * Sample.HOUR ∧
      p.duration = some Sample.HOUR ∧ q.duration = some Sample.HOUR ∧
      (Dict.get? p.pstate "bob" = some "ACCEPTED" ∧ p.transparent = false ∧ p.status ≠ "CANCELED" ∧ Dict.get? p.pstate "carol" = none) ∧
      (Dict.get? q.pstate "carol" = some "ACCEPTED" ∧ q.transparent = false ∧ q.status ≠ "CANCELED" ∧ Dict.get? q.pstate "bob" = none) :=
    ⟨_, _, rfl, by decide +kernel⟩
  have ha : BusyAt oneMeeting "alice" t ↔ Sample.day + 10 * Sample.HOUR ≤ t ∧ t < Sample.day + 12 * Sample.HOUR := by
    rw [busy_by_list w1 (by rw [hm]; simpa using m1), hm]
    simp [Attends, Blocking, m2, m3, m4]
    intro _
    unfold Sample.HOUR
    omega
  have hb : BusyAt twoMeetings "bob" t ↔ Sample.day + 11 * Sample.HOUR ≤ t ∧ t < Sample.day + 12 * Sample.HOUR := by
    rw [busy_by_list w2 (by rw [hpq]; simpa using ⟨p1, q1⟩), hpq]
    simp [Attends, Blocking, p2, p3, p4, q4]
    intro _
    unfold Sample.HOUR
    omega
  have hc : BusyAt twoMeetings "carol" t ↔ Sample.day + 10 * Sample.HOUR ≤ t ∧ t < Sample.day + 11 * Sample.HOUR := by
    rw [busy_by_list w2 (by rw [hpq]; simpa using ⟨p1, q1⟩), hpq]
    simp [Attends, Blocking, q2, q3, p4, q4]
    intro _
    unfold Sample.HOUR
    omega
  simp only [List.mem_cons, List.not_mem_nil, or_false, exists_eq_left, exists_eq_or_imp, ha, hb, hc]
  unfold Sample.HOUR
  omega

/-- C118, concrete: both ways of dividing the work leave the same time free. -/
example :
    oneMeeting.getBlockedPeriods ["alice"] Sample.day (Sample.day + DAY) (8 * Sample.HOUR) (17 * Sample.HOUR) =
      .ok [(Sample.day, Sample.day + 8 * Sample.HOUR), (Sample.day + 10 * Sample.HOUR, Sample.day + 12 * Sample.HOUR),
        (Sample.day + 17 * Sample.HOUR, Sample.day + 24 * Sample.HOUR)] ∧
    twoMeetings.getBlockedPeriods ["bob", "carol"] Sample.day (Sample.day + DAY) (8 * Sample.HOUR) (17 * Sample.HOUR) =
      .ok [(Sample.day, Sample.day + 8 * Sample.HOUR), (Sample.day + 10 * Sample.HOUR, Sample.day + 12 * Sample.HOUR),
        (Sample.day + 17 * Sample.HOUR, Sample.day + 24 * Sample.HOUR)] := by decide +kernel

/-- C118: the condition on empty blocked periods is needed: something that takes no time does not make Alice busy, but it cuts the
free afternoon of five hours in two, and a search for four hours finds nothing any more. -/
theorem C118_reminder_counterexample (b en tb te : Int) :
    SameBusy oneMeeting withReminder ["alice"] ["alice"] b en tb te ∧
    oneMeeting.getFreePeriods ["alice"] Sample.day (Sample.day + DAY) (8 * Sample.HOUR) (17 * Sample.HOUR) (some (4 * Sample.HOUR)) =
      .ok [(Sample.day + 12 * Sample.HOUR, Sample.day + 17 * Sample.HOUR)] ∧
    withReminder.getFreePeriods ["alice"] Sample.day (Sample.day + DAY) (8 * Sample.HOUR) (17 * Sample.HOUR) none =
      .ok [(Sample.day + 8 * Sample.HOUR, Sample.day + 10 * Sample.HOUR), (Sample.day + 12 * Sample.HOUR, Sample.day + 14 * Sample.HOUR),
        (Sample.day + 14 * Sample.HOUR, Sample.day + 17 * Sample.HOUR)] ∧
    withReminder.getFreePeriods ["alice"] Sample.day (Sample.day + DAY) (8 * Sample.HOUR) (17 * Sample.HOUR) (some (4 * Sample.HOUR)) =
      .ok [] := by
  refine ⟨?_, by decide +kernel, by decide +kernel, by decide +kernel⟩
  intro t _ _ _
  obtain ⟨w1, _, w3⟩ := busy_examples_wf
  obtain ⟨m, r, hm, hr, m1, r1, r2⟩ : ∃ m r, Dict.values oneMeeting.events = [m] ∧ Dict.values withReminder.events = [m, r] ∧
      m.recurrence = none ∧ r.recurrence = none ∧ r.duration = some 0 := ⟨_, _, rfl, rfl, by decide +kernel⟩
  simp only [List.mem_cons, List.not_mem_nil, or_false, exists_eq_left]
  rw [busy_by_list w1 (by rw [hm]; simpa using m1), busy_by_list w3 (by rw [hr]; simpa using ⟨m1, r1⟩), hm, hr]
  simp only [List.mem_cons, List.not_mem_nil, or_false, exists_eq_left, exists_eq_or_imp]
  constructor
  · exact Or.inl
  · rintro (h | ⟨_, _, d, hd, h1, h2⟩)
    · exact h
    · rw [r2] at hd
      injection hd with hd
      omega

end CalCore
