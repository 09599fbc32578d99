import Verif.Lemmas.SourceImportLoop
import Verif.Lemmas.LangSame
import Verif.Spec.RepresentCalText
import Verif.Props.Import2
import Verif.Props.Announce
import Verif.Props.WrittenImport
/- Property C145: the import of calendars, as it is written. -/
namespace CalCore
open Spec Lang

theorem component_given {L : Listing} (hL : L.Faithful) {tz : LocalTz} {c : Calendar} {src : Source} {v : VEvent} {d : Dict String Val}
    (h : Component L tz c src v d) : Given L tz c src v d := by
  refine ⟨h.parsed, ?_, fun s hs ha x hx => h.fits s hs ha x hx⟩
  have hl := h.listed
  unfold ListedAs getCategories catList
  cases hc : v.categories with
  | absent =>
    simp only []
    rw [List.eq_nil_iff_forall_not_mem]
    intro x hx
    have := (hL _ _).1 hx
    simp at this
  | inline l => exact hl l (.inl hc)
  | multi l => exact hl l (.inr hc)

theorem parseWith_one (s : String) (g : Val) (x : M Val) (hx : parseWith [(.str s, g)] (.str s) = x) :
    callPrim .fromString [.dict [(.str s, g)], .str s] [] = x := hx

theorem import_written (L : Listing) (hL : L.Faithful) (w : World) (hw : w.store.WF) (src : Source) (c : Calendar) (tz : LocalTz) (text : String)
    (b e : Option Int) (cr : Option Criteria) (sync : Val) (parse : List Char → Res (Option (List VEvent))) (o : Outcome)
    (ho : Means L tz c src (parse (repairText text.toList)) o) :
    ∃ out, Imports o L src c text b e cr sync w.store (w.import_ parse tz c src text.toList b e cr sync.truthy).1.store out
        (endOf (w.import_ parse tz c src text.toList b e cr sync.truthy).2) ∧
      Tells L w (w.import_ parse tz c src text.toList b e cr sync.truthy).1 out := by
  let G : Source.Globals := Source.reading (parserFor (String.ofList (repairText text.toList)) o)
  have hG : @Weekdays G := ⟨rfl⟩
  obtain ⟨r, hp, hr⟩ : ∃ r, Yields L tz c src (parse (repairText text.toList)) r ∧
      callPrim .fromString [parserFor (String.ofList (repairText text.toList)) o, .str (String.ofList (repairText text.toList))] [] = r := by
    generalize parse (repairText text.toList) = pr at ho
    cases ho with
    | fails f =>
      refine ⟨_, .fails f, parseWith_one _ _ _ ?_⟩
      unfold parseWith
      rw [eq_str]
      simp
    | nothing =>
      refine ⟨_, .nothing, parseWith_one _ _ _ ?_⟩
      unfold parseWith
      rw [eq_str]
      simp
    | components vs ds h =>
      refine ⟨_, .calendar vs ds (h.imp fun _ _ h => component_given hL h), parseWith_one _ _ _ ?_⟩
      unfold parseWith
      rw [eq_str]
      simp
  obtain ⟨out, ht, h⟩ := @import_prog G hG L hL w hw src c tz text b e cr sync
    (parserFor (String.ofList (repairText text.toList)) o) parse r hp rfl hr
  exact ⟨out, @answers_of G _ _ _ _ 0 10 (fun W n _ => h W n), ht⟩

/-! ### what the text does -/

section
variable (L : Listing) (hL : L.Faithful) (w : World) (hw : w.store.WF) (src : Source) (c : Calendar) (tz : LocalTz) (text : String)
  (b e : Option Int) (cr : Option Criteria) (sync : Val) (o : Outcome)

include hL hw

/-- C145: the import as written does what the function of the model does, and its notifications are those that the model logs;
every notification carries an event with the id it is about. -/
theorem C145_same (parse : List Char → Res (Option (List VEvent))) (ho : Means L tz c src (parse (repairText text.toList)) o) :
    ∃ out ns, Imports o L src c text b e cr sync w.store (w.import_ parse tz c src text.toList b e cr sync.truthy).1.store out
        (endOf (w.import_ parse tz c src text.toList b e cr sync.truthy).2) ∧
      (w.import_ parse tz c src text.toList b e cr sync.truthy).1.log = w.log ++ ns ∧ List.Forall₂ (Reports L) out ns := by
  obtain ⟨out, h, ns, h1, h2⟩ := import_written L hL w hw src c tz text b e cr sync parse o ho
  exact ⟨out, ns, h, h1, h2⟩

/-- C145: if the calendar cannot be asked, or the parser raises or returns None, the import as written changes nothing and notifies
nobody; it ends with the exception, if there is one. -/
theorem C145_nothing (r : Res (Option (List VEvent))) (ho : Means L tz c src r o) :
    (∀ f, c.getEvents src w.store b e cr = .error f → Imports o L src c text b e cr sync w.store w.store [] (some (ofFault f))) ∧
    (∀ l, c.getEvents src w.store b e cr = .ok l →
      (∀ f, r = .error f → Imports o L src c text b e cr sync w.store w.store [] (some (ofFault f))) ∧
      (r = .ok none → Imports o L src c text b e cr sync w.store w.store [] none)) := by
  obtain ⟨out, h, ns, h1, h2⟩ := import_written L hL w hw src c tz text b e cr sync (fun _ => r) o ho
  have key : ∀ x, w.import_ (fun _ => r) tz c src text.toList b e cr sync.truthy = (w, x) →
      Imports o L src c text b e cr sync w.store w.store [] (endOf x) := by
    intro x hx
    rw [hx] at h h1
    have : ns = [] := by simpa using h1
    subst this
    cases h2
    exact h
  refine ⟨fun f hf => key (.error f) ?_, fun l hl => ⟨fun f hf => key (.error f) ?_, fun hf => key (.ok ()) ?_⟩⟩
  · unfold World.import_; rw [hf]
  · unfold World.import_; rw [hl, hf]
  · unfold World.import_; rw [hl, hf]

/-- C145: whatever the parser makes of the text, and whether or not the import as written raises, an event that the calendar does
not show for the given period and criteria stays as it was. -/
theorem C145_foreign (r : Res (Option (List VEvent))) (ho : Means L tz c src r o) :
    ∃ st out fin, Imports o L src c text b e cr sync w.store st out fin ∧
      ∀ u ev, w.store.getEvent u = .ok ev → (∀ l, c.getEvents src w.store b e cr = .ok l → ev ∉ l) → st.getEvent u = .ok ev := by
  obtain ⟨out, h, _⟩ := import_written L hL w hw src c tz text b e cr sync (fun _ => r) o ho
  exact ⟨_, out, _, h, fun u ev hu hf => C46_foreign (fun _ => r) tz c src text.toList b e cr sync.truthy w hw u ev hu hf⟩

/-- C145: when the import as written returns, the store has exactly the uids of the data and those it had before, except, when
synchronizing, those of the calendar's events that are not in the data; an import that does not synchronize, or raises, deletes
nothing. -/
theorem C145_deletions (vs : List VEvent) (ds : List (Dict String Val)) (hd : List.Forall₂ (Component L tz c src) vs ds) :
    ∃ st out fin, Imports (.components ds) L src c text b e cr sync w.store st out fin ∧
      (∀ l, c.getEvents src w.store b e cr = .ok l → fin = none → ∀ u, st.hasEvent u = true ↔
        (∃ v ∈ vs, v.uid = some u) ∨ w.store.hasEvent u = true ∧ ¬ (sync.truthy = true ∧ ∃ ev ∈ l, ev.uid = u)) ∧
      (sync.truthy = false ∨ fin ≠ none → ∀ u, w.store.hasEvent u = true → st.hasEvent u = true) := by
  obtain ⟨out, h, _⟩ := import_written L hL w hw src c tz text b e cr sync (fun _ => .ok (some vs)) _ (.components vs ds hd)
  have he : ∀ r : Res Unit, endOf r = none ↔ r = .ok () := by
    intro r
    cases r with
    | error f => exact ⟨fun h => (by cases h), fun h => (by cases h)⟩
    | ok x => exact ⟨fun _ => rfl, fun _ => rfl⟩
  refine ⟨_, out, _, h, fun l hl hf u => ?_, fun hs u hu => ?_⟩
  · exact C47_exact (fun _ => .ok (some vs)) tz c src text.toList b e cr sync.truthy w hw vs l rfl hl ((he _).1 hf) u
  · refine C47_no_deletion (fun _ => .ok (some vs)) tz c src text.toList b e cr sync.truthy w hw ?_ u hu
    exact hs.imp id (fun h hr => h ((he _).2 hr))

/-- C145: when the import as written returns, an event that the calendar showed, or that is new, says what the data say, for data
with different uids. -/
theorem C145_data (vs : List VEvent) (ds : List (Dict String Val)) (hd : List.Forall₂ (Component L tz c src) vs ds)
    (hn : (dataUids vs).Nodup) :
    ∃ st out fin, Imports (.components ds) L src c text b e cr sync w.store st out fin ∧
      (fin = none → ∀ l, c.getEvents src w.store b e cr = .ok l → ∀ v ∈ vs, ∀ u, v.uid = some u →
        (∃ ev ∈ l, ev.uid = u) ∨ w.store.hasEvent u = false →
        ∃ ev, st.getEvent u = .ok ev ∧ SaysWhat v ev ∧
          (∃ t, v.dtstart = some t ∧ (ev.allday = true ↔ IsDateValue t)) ∧
          (ev.allday = false ∨ w.store.hasEvent u = true → AtTime tz v ev) ∧
          (∀ a, HasKnownOrganizer src v a → ev.organizerId = some a ∧ Attends ev a) ∧
          ∀ p ∈ v.attendees, Attends ev p.addr) := by
  obtain ⟨out, h, _⟩ := import_written L hL w hw src c tz text b e cr sync (fun _ => .ok (some vs)) _ (.components vs ds hd)
  refine ⟨_, out, _, h, fun hf l hl v hv u hu hk => ?_⟩
  have hr : (w.import_ (fun _ => .ok (some vs)) tz c src text.toList b e cr sync.truthy).2 = .ok () := by
    generalize (w.import_ (fun _ => .ok (some vs)) tz c src text.toList b e cr sync.truthy).2 = r at hf ⊢
    cases r with
    | error f => cases hf
    | ok x => rfl
  exact C82_data_partial (fun _ => .ok (some vs)) tz c src text.toList b e cr sync.truthy w hw vs hn l rfl hl hr v hv u hu hk

/-- C145: when the import as written returns, every event that appeared, disappeared or changed is announced: one of the
notifications carries an event with its uid. -/
theorem C145_announced (vs : List VEvent) (ds : List (Dict String Val)) (hd : List.Forall₂ (Component L tz c src) vs ds) :
    ∃ st out fin, Imports (.components ds) L src c text b e cr sync w.store st out fin ∧
      (fin = none → ∀ u, Dict.get? st.events u ≠ Dict.get? w.store.events u →
        ∃ n ev, ofNote L ev n ∈ out ∧ ev.uid = u) := by
  obtain ⟨out, h, ns, h1, h2⟩ := import_written L hL w hw src c tz text b e cr sync (fun _ => .ok (some vs)) _ (.components vs ds hd)
  refine ⟨_, out, _, h, fun hf u hu => ?_⟩
  have hstep : w.step (.import_ tz c src vs b e cr sync.truthy) = w.import_ (fun _ => .ok (some vs)) tz c src text.toList b e cr sync.truthy := rfl
  have hr : (w.step (.import_ tz c src vs b e cr sync.truthy)).2 = .ok () := by
    rw [hstep]
    generalize (w.import_ (fun _ => .ok (some vs)) tz c src text.toList b e cr sync.truthy).2 = r at hf ⊢
    cases r with
    | error f => cases hf
    | ok x => rfl
  obtain ⟨notes, h3, h4⟩ := step_told hw (op := .import_ tz c src vs b e cr sync.truthy) (fun h => h) hr
  rw [hstep] at h3 h4
  have : notes = ns := List.append_cancel_left (h3.symm.trans h1)
  subst this
  by_contra hno
  refine hu (h4 u (fun n hn ha => ?_))
  clear h h1 h3 h4
  induction h2 with
  | nil => cases hn
  | @cons x m xs ms hx hxs ih =>
    rcases List.mem_cons.1 hn with rfl | hn
    · obtain ⟨ev, hv, he⟩ := hx
      refine hno ⟨n, ev, ?_, ?_⟩
      · rw [hv]; exact List.mem_cons_self
      · rw [he, ← ha]; cases n <;> rfl
    · refine ih (fun hno' => hno ?_) hn
      obtain ⟨n', ev, h5, h6⟩ := hno'
      exact ⟨n', ev, List.mem_cons_of_mem _ h5, h6⟩

end

namespace Sample

/-- A talk, new to the store. -/
def talk : VEvent where
  uid := some "n"
  dtstart := some (.naive (day + 30 * HOUR))
  duration := some HOUR
  summary := some "talk"
  organizer := some "alice"
  attendees := [⟨"bob", some "ACCEPTED", none⟩]
  categories := .multi ["work"]
  rrule := some { freq := some "WEEKLY", interval := some [2] }

/-- Its properties. -/
def talkProps : Dict String Val :=
  [("UID", .str "n"), ("SUMMARY", .str "talk"), ("DTSTART", ofTime (fun _ => 0) (.naive (day + 30 * HOUR))), ("DURATION", .delta HOUR),
   ("ORGANIZER", .obj "vCalAddress" [("value", .str "alice"), ("params", ofMap [])]),
   ("ATTENDEE", .obj "vCalAddress" [("value", .str "bob"), ("params", ofMap [("PARTSTAT", .str "ACCEPTED")])]),
   ("CATEGORIES", .list [.str "work"]), ("RRULE", ofMap [("FREQ", .list [.str "WEEKLY"]), ("INTERVAL", .list [.int 2])])]

/-- The meeting of the store under another name, for a whole day. -/
def renamed : VEvent where
  uid := some "m"
  dtstart := some (.date (dtDate day))
  summary := some "assembly"
  organizer := some "alice"

/-- Its properties. -/
def renamedProps : Dict String Val :=
  [("UID", .str "m"), ("SUMMARY", .str "assembly"), ("DTSTART", ofTime (fun _ => 0) (.date (dtDate day))),
   ("ORGANIZER", .obj "vCalAddress" [("value", .str "alice"), ("params", ofMap [])])]

theorem talk_component : Component listing (fun _ => 0) team people talk talkProps where
  parsed := {
    uid := rfl, dtstart := rfl, dtend := rfl, duration := rfl, summary := rfl, description := rfl, location := rfl, status := rfl
    organizer := .inr ⟨"alice", [("params", ofMap [])], rfl, rfl⟩
    attendees := .inr (.inl ⟨_, _, rfl, rfl, ⟨_, rfl, rfl, rfl⟩⟩)
    categories := rfl, transp := rfl, cls := rfl, attach := rfl
    rrule := .inr ⟨_, _, rfl, rfl, by constructor <;> rfl⟩ }
  listed := by
    intro l hl
    have : l = ["work"] := by
      rcases hl with h | h
      · cases h
      · injection h with h; exact h.symm
    subst this
    exact Finset.sort_singleton (· ≤ ·) "work"
  fits := by
    intro s hs
    have : ∃ s', importSpec (fun _ => 0) team people talk = .ok s' ∧ s'.allday = false := by
      refine ⟨_, rfl, ?_⟩
      decide +kernel
    obtain ⟨s', h1, h2⟩ := this
    rw [h1] at hs
    injection hs with hs
    subst hs
    intro ha
    rw [h2] at ha
    cases ha

theorem renamed_component : Component listing (fun _ => 0) team people renamed renamedProps where
  parsed := {
    uid := rfl, dtstart := rfl, dtend := rfl, duration := rfl, summary := rfl, description := rfl, location := rfl, status := rfl
    organizer := .inr ⟨"alice", [("params", ofMap [])], rfl, rfl⟩
    attendees := .inl ⟨rfl, rfl⟩
    categories := rfl, transp := rfl, cls := rfl, attach := rfl
    rrule := .inl ⟨rfl, rfl⟩ }
  listed := by
    intro l hl
    rcases hl with h | h <;> cases h
  fits := by
    intro s hs _ x hx
    have : ∃ s', importSpec (fun _ => 0) team people renamed = .ok s' ∧ s'.duration = some 0 := ⟨_, rfl, by decide +kernel⟩
    obtain ⟨s', h1, h2⟩ := this
    rw [h1] at hs
    injection hs with hs
    subst hs
    rw [h2] at hx
    injection hx with hx
    subst hx
    decide

end Sample

/-- C145, concrete: Bob and Alice synchronize with data that rename the meeting and contain a talk, and lose the trip and the
point.  Four notifications are sent. -/
example : ∃ st out ns,
    Imports (.components [Sample.renamedProps, Sample.talkProps]) Sample.listing Sample.people Sample.team "BEGIN:VCALENDAR" none none none
      (.int 1) Sample.store st out none ∧
    st.events.map (fun p => (p.1, p.2.title)) = [("m", "assembly"), ("n", "talk")] ∧
    List.Forall₂ (Reports Sample.listing) out ns ∧ ns = [.modified "m", .created "n", .deleted "t", .deleted "p"] := by
  obtain ⟨out, ns, h1, h2, h3⟩ := C145_same Sample.listing Sample.listing_faithful { store := Sample.store, log := [] } Sample.store_wf
    Sample.people Sample.team (fun _ => 0) "BEGIN:VCALENDAR" none none none (.int 1) (.components [Sample.renamedProps, Sample.talkProps])
    (fun _ => .ok (some [Sample.renamed, Sample.talk]))
    (.components _ _ (.cons Sample.renamed_component (.cons Sample.talk_component .nil)))
  have he : endOf (({ store := Sample.store, log := [] } : World).import_ (fun _ => .ok (some [Sample.renamed, Sample.talk])) (fun _ => 0)
      Sample.team Sample.people "BEGIN:VCALENDAR".toList none none none (Val.int 1).truthy).2 = none := by decide +kernel
  have hl : (({ store := Sample.store, log := [] } : World).import_ (fun _ => .ok (some [Sample.renamed, Sample.talk])) (fun _ => 0)
      Sample.team Sample.people "BEGIN:VCALENDAR".toList none none none (Val.int 1).truthy).1.log
      = [.modified "m", .created "n", .deleted "t", .deleted "p"] := by decide +kernel
  rw [he] at h1
  rw [hl] at h2
  exact ⟨_, out, ns, h1, by decide +kernel, h3, h2.symm⟩

/-- C145, concrete: what the theorems need of the store, of the data and of the calendar. -/
example : Sample.store.WF ∧ (dataUids [Sample.renamed, Sample.talk]).Nodup ∧
    (∃ l, Sample.team.getEvents Sample.people Sample.store none none none = .ok l) ∧
    Means Sample.listing (fun _ => 0) Sample.team Sample.people (.error (.py .ValueError)) (.fails (.py .ValueError)) ∧
    (∃ ev, Sample.store.getEvent "p" = .ok ev ∧ ∀ l, Sample.carol.getEvents Sample.people Sample.store none none none = .ok l → ev ∉ l) :=
  ⟨Sample.store_wf, by decide +kernel, ⟨_, rfl⟩, .fails _, ⟨_, rfl, fun l hl => by
    have : Sample.carol.getEvents Sample.people Sample.store none none none = .ok [] := rfl
    rw [this] at hl
    injection hl with hl
    subst hl
    simp⟩⟩

end CalCore
