import Verif.Lemmas.Order
import Verif.Props.Samples
import Verif.Props.Allday
/- C116: the order in which dictionaries are walked. -/
namespace CalCore
open Spec

/-! ### C116 -/

/-- C116: whatever the order of the dictionaries after any history, every call has the same effect up to order; it raises for one
order iff it raises for the other.  Calls other than imports raise the same exception; only deleting imports may
notify in another order. -/
theorem C116_call (id host : String) (ops : List Op) (t : Storage) (op op' : Op)
    (ht : SameStore ((freshWorld id host).run ops).store t) (hop : SameCall op op') :
    let w := (freshWorld id host).run ops
    SameStore (w.step op).1.store (World.step ⟨t, w.log⟩ op').1.store ∧
    ((w.step op).2 = .ok () ↔ (World.step ⟨t, w.log⟩ op').2 = .ok ()) ∧
    (w.step op).1.log.Perm (World.step ⟨t, w.log⟩ op').1.log ∧
    (NoSync op → (w.step op).1.log = (World.step ⟨t, w.log⟩ op').1.log) ∧
    (NoImport op → (w.step op).2 = (World.step ⟨t, w.log⟩ op').2) := by
  intro w
  have hs := (reached_sim id host ops).shuffle ht
  have h1 : w.Sim (NoSync op) ⟨t, w.log⟩ := ⟨hs, List.Perm.refl _, fun _ => rfl⟩
  obtain ⟨h2, h3⟩ := h1.call hop fun hh => hh
  refine ⟨h2.store.same, h3, h2.log.perm, h2.log.eq, fun hi => ?_⟩
  have := sameCall_eq hop hi
  subst this
  exact (h1.step op hi).2

/-- C116: if all dictionaries are reordered before every call of a history, the same events, identities, attributes and
participations are reached, and the same notifications are sent — in the same order unless an import deletes. -/
theorem C116_history (id host : String) (ops : List Op) (w : World) (h : ShuffledRun (freshWorld id host) ops w) :
    SameStore ((freshWorld id host).run ops).store w.store ∧ ((freshWorld id host).run ops).log.Perm w.log ∧
    ((∀ op ∈ ops, NoSync op) → ((freshWorld id host).run ops).log = w.log) := by
  have hf := fresh_sim id host
  obtain ⟨h1, h2⟩ := World.Sim.shuffled h (strict := ∀ op ∈ ops, NoSync op) ⟨hf.store, hf.log.perm, fun _ => rfl⟩ fun hh => hh
  exact ⟨h1.same, h2.perm, h2.eq⟩

/-- C116: the queries of the storage return the same answers up to order. -/
theorem C116_queries (id host : String) (ops : List Op) (t : Storage) (ht : SameStore ((freshWorld id host).run ops).store t)
    (b e : Option DateTime) (cr : Option Criteria) (a : AttId) :
    let s := ((freshWorld id host).run ops).store
    SameAnswer SameEvent (s.getEvents b e cr) (t.getEvents b e cr) ∧
    SameAnswer SameOccurrence (s.getOccurrences b e cr) (t.getOccurrences b e cr) ∧
    SameAnswer SameOccurrence (s.getOccurrencesSegmented b e cr) (t.getOccurrencesSegmented b e cr) ∧
    SameAnswer SameEvent (s.attendeeGetEvents a b e cr) (t.attendeeGetEvents a b e cr) ∧
    SameAnswer SameOccurrence (s.attendeeGetOccurrences a b e cr) (t.attendeeGetOccurrences a b e cr) ∧
    SameAnswer SameEvent (s.getOrganizedEvents a cr) (t.getOrganizedEvents a cr) := by
  intro s
  have hs := (reached_sim id host ops).shuffle ht
  have h1 : ∀ x y : Event, x.Sim y → SameEvent x y := fun _ _ h => h.same
  have h2 : ∀ x y : Occurrence Event, OccSim x y → SameOccurrence x y := fun _ _ h => ⟨h.dtstart, h.duration, h.original.same⟩
  exact ⟨(hs.getEvents b e fun _ => rfl).mono h1, (hs.getOccurrences b e fun _ => rfl).mono h2,
    (hs.getOccurrencesSegmented b e fun _ => rfl).mono h2, (hs.getEvents b e fun _ => rfl).mono h1,
    (hs.getOccurrences b e fun _ => rfl).mono h2, (hs.getEvents none none fun _ => rfl).mono h1⟩

/-- C116: the queries of calendars, whose dictionaries may be reordered too (whoever is first), and their exports. -/
theorem C116_calendars (id host : String) (ops : List Op) (t : Storage) (ht : SameStore ((freshWorld id host).run ops).store t)
    (c c' : Calendar) (hc : c.Perm c') (src : Source) (b e : Option DateTime) (cr : Option Criteria)
    (order : Finset String → List String) :
    let s := ((freshWorld id host).run ops).store
    SameAnswer SameEvent (c.getEvents src s b e cr) (c'.getEvents src t b e cr) ∧
    SameAnswer SameOccurrence (c.getOccurrences src s b e cr) (c'.getOccurrences src t b e cr) ∧
    SameAnswer SameOccurrence (c.getOccurrencesSegmented src s b e cr) (c'.getOccurrencesSegmented src t b e cr) ∧
    SameAnswer Eq (c.export src s b e cr order) (c'.export src t b e cr order) := by
  intro s
  have hs := (reached_sim id host ops).shuffle ht
  have h1 : ∀ x y : Event, x.Sim y → SameEvent x y := fun _ _ h => h.same
  have h2 : ∀ x y : Occurrence Event, OccSim x y → SameOccurrence x y := fun _ _ h => ⟨h.dtstart, h.duration, h.original.same⟩
  exact ⟨(hs.calendarGetEvents hc src b e cr).mono h1, (hs.calendarGetOccurrences hc src b e cr).mono h2,
    (hs.calendarSegmented hc src b e cr).mono h2, hs.calendarExport hc src b e cr order⟩

/-- C116: blocked and free periods are lists without arbitrary order: they are identical. -/
theorem C116_blocked (id host : String) (ops : List Op) (t : Storage) (ht : SameStore ((freshWorld id host).run ops).store t)
    (atts : List AttId) (b en tb te : Int) (md : Option Int) (R : List (Int × Int)) :
    let s := ((freshWorld id host).run ops).store
    (s.getBlockedPeriods atts b en tb te = .ok R ↔ t.getBlockedPeriods atts b en tb te = .ok R) ∧
    (s.getFreePeriods atts b en tb te md = .ok R ↔ t.getFreePeriods atts b en tb te md = .ok R) := by
  intro s
  have hs := (reached_sim id host ops).shuffle ht
  refine ⟨hs.blocked atts b en tb te R, ?_⟩
  unfold Storage.getFreePeriods
  have hb := hs.blocked atts b en tb te
  simp only [bind_ok, s, hb]

/-! ### C116: what the order decides -/

/-- The sample storage with its dictionary of events reversed, and with the participations of every event reversed. -/
def Sample.reversed : Storage :=
  { Sample.store with events :=
      (Sample.store.events.map fun p => (p.1, { p.2 with pstate := p.2.pstate.reverse, prole := p.2.prole.reverse })).reverse }

theorem Sample.reversed_same : SameStore Sample.store Sample.reversed := by
  refine ⟨rfl, rfl, Sample.store.events.reverse, (List.reverse_perm _).symm, ?_⟩
  unfold Sample.reversed
  simp only []
  rw [← List.map_reverse, List.forall₂_map_right_iff, List.forall₂_same]
  intro p _
  exact ⟨rfl, rfl, (List.reverse_perm _).symm, (List.reverse_perm _).symm⟩

/-- C116, concrete: the two storages differ, and so do the answers, but only in their order. -/
example : Dict.keys Sample.store.events = ["m", "t", "p"] ∧ Dict.keys Sample.reversed.events = ["p", "t", "m"] ∧
    (Dict.get? Sample.store.events "t").map (·.pstate) ≠ (Dict.get? Sample.reversed.events "t").map (·.pstate) ∧
    (Sample.store.getEvents none none none).map (·.map (·.uid)) = .ok ["m", "t", "p"] ∧
    (Sample.reversed.getEvents none none none).map (·.map (·.uid)) = .ok ["p", "t", "m"] := by decide +kernel

/-- C116, concrete: a call on the reversed storage. -/
example : SameStore (Sample.world.step (.invite "m" ["carol"])).1.store
    (World.step ⟨Sample.reversed, Sample.world.log⟩ (.invite "m" ["carol"])).1.store :=
  (C116_call "st" "host" Sample.ops Sample.reversed (.invite "m" ["carol"]) (.invite "m" ["carol"]) Sample.reversed_same rfl).1

/-- C116, concrete: a history during which the dictionaries are reversed once. -/
example : let c1 : Op := .create 0 (some "m") Sample.meeting
    let c2 : Op := .setStatus "m" "bob" (some "ACCEPTED")
    let w := ((freshWorld "st" "host").step c1).1
    let t : Storage := { w.store with events := w.store.events.map fun p => (p.1, { p.2 with pstate := p.2.pstate.reverse }) }
    ShuffledRun (freshWorld "st" "host") [c1, c2] (World.step ⟨t, w.log⟩ c2).1 ∧ t.events ≠ w.store.events := by
  intro c1 c2 w t
  refine ⟨?_, by decide +kernel⟩
  refine .call (t := (freshWorld "st" "host").store) (op' := c1) ⟨rfl, rfl, [], List.Perm.refl _, .nil⟩ rfl ?_
  refine .call (t := t) (op' := c2) ⟨rfl, rfl, _, List.Perm.refl _, ?_⟩ rfl (.done _)
  show List.Forall₂ _ w.store.events (w.store.events.map fun p => (p.1, { p.2 with pstate := p.2.pstate.reverse }))
  rw [List.forall₂_map_right_iff, List.forall₂_same]
  intro p _
  exact ⟨rfl, rfl, (List.reverse_perm _).symm, List.Perm.refl _⟩

/-- The order decides which exception a query raises when several events make it raise. -/
theorem C116_exception_counterexample :
    let w := (freshWorld "st" "host").run [.create 0 (some "x") { dtstart := 5, duration := none },
      .create 0 (some "y") { dtstart := (MAXORD + 1) * DAY - 1, duration := some 1 }]
    let t : Storage := { w.store with events := w.store.events.reverse }
    SameStore w.store t ∧ w.store.getEvents (some 10) none none = raise .TypeError ∧
      t.getEvents (some 10) none none = raise .OverflowError := by
  refine ⟨⟨rfl, rfl, _, (List.reverse_perm _).symm, ?_⟩, by decide +kernel, by decide +kernel⟩
  rw [List.forall₂_same]
  intro p _
  exact ⟨rfl, rfl, List.Perm.refl _, List.Perm.refl _⟩

/-- Data of one new event without organizer. -/
def Sample.orphan : List VEvent := [{ uid := some "n", dtstart := some (.naive Sample.day), dtend := some (.naive (Sample.day + Sample.HOUR)) }]

/-- The order of the dictionary of a calendar decides who organizes the events it imports: "the main attendee" is whoever
comes first (cal.py:683-688). -/
theorem C116_main_counterexample :
    let c : Calendar := [("alice", ()), ("bob", ())]
    let w := fun c => ((freshWorld "st" "host").step (.import_ (fun _ => 0) c Sample.src Sample.orphan none none none false)).1
    c.Perm c.reverse ∧ (Dict.get? (w c).store.events "n").map (·.organizerId) = some (some "alice") ∧
      (Dict.get? (w c.reverse).store.events "n").map (·.organizerId) = some (some "bob") := by
  refine ⟨(List.reverse_perm _).symm, by decide +kernel, by decide +kernel⟩

/-- The order decides in which order a synchronizing import deletes. -/
theorem C116_log_counterexample :
    let op : Op := .import_ (fun _ => 0) [("alice", ()), ("bob", ())] Sample.src [] none none none true
    (Sample.world.step op).1.log ≠ (World.step ⟨Sample.reversed, Sample.world.log⟩ op).1.log := by
  decide +kernel

end CalCore
