import Verif.Props.WrittenClock
import Verif.Props.Participation
import Verif.Lemmas.SourceKeywords
/- Property C146: specifications made from keywords, and the creation of events by attendees, as they are written. -/
namespace CalCore
open Spec Lang

/-! ### keywords -/

/-- What a specification takes, and what it is if it is not given. -/
def specKeywords : List (String × Option Val) :=
  [("dtstart", none), ("duration", none), ("title", some (.str "")), ("description", some (.str "")), ("location", some (.str "")),
   ("status", some (.str "TENTATIVE")), ("organizer", some .none), ("recurrence", some .none), ("allday", some (.bool false)),
   ("categories", some (.set [])), ("transparent", some (.bool false)), ("access", some (.str "PUBLIC")), ("document", some .none),
   ("attendees", some (.list []))]

/-- What an attribute becomes: the default if nothing was given, and what was given, but for categories given as None. -/
def taken (x : String) (default : Val) : Option Val → Val
  | none => default
  | some .none => if x = "categories" then .set [] else .none
  | some v => v

/-- C146: `EventSpecification(**d)` as written.  If `d` has `dtstart` and `duration` and nothing that is not a keyword, the object has
what was given and the defaults of the others, where categories that are given as None are empty.  Otherwise TypeError is raised. -/
theorem C146_keywords (d : Dict String Val) :
    ((∀ p ∈ d, p.1 ∈ specKeywords.map (·.1)) → d.has "dtstart" = true → d.has "duration" = true →
      ∃ attrs, MakesWith "EventSpecification" d (.ok (.obj "EventSpecification" attrs)) ∧
        attrs.length = specKeywords.length ∧
        ∀ q ∈ specKeywords, getAttr q.1 attrs = .ok (taken q.1 (q.2.getD .none) (d.get? q.1))) ∧
    (((∃ p ∈ d, p.1 ∉ specKeywords.map (·.1)) ∨ d.has "dtstart" = false ∨ d.has "duration" = false) →
      MakesWith "EventSpecification" d (.error (.py .TypeError))) := by
  have names : specKeywords.map (·.1) = specParams.map (·.1) := by decide +kernel
  have has_iff : ∀ x, d.has x = true ↔ ∃ p ∈ d, p.1 = x := fun x => by simp [Dict.has]
  have isNone : ∀ j : Val, Val.is j .none = .ok (match j with | .none => true | _ => false) := by
    intro j
    cases j with
    | obj c a =>
      unfold Val.is
      split <;> simp_all
    | _ => rfl
  have hv : ∀ (x : String) (v : Val), x ≠ "categories" → ∀ o : Option Val, o.getD v = taken x v o := by
    intro x v hx o
    cases o with
    | none => rfl
    | some o => cases o <;> simp [taken, hx]
  constructor
  · intro h1 h2 h3
    have hf : KwFits specParams d := by
      refine ⟨fun p hp => ?_, fun q hq hd => ?_⟩
      · have := h1 p hp
        rw [names, List.mem_map] at this
        exact this
      · have : q.1 = "dtstart" ∨ q.1 = "duration" := by
          simp only [specParams, Source.EventSpecification_init, List.tail_cons, List.mem_cons, List.not_mem_nil, or_false] at hq
          rcases hq with rfl | rfl | rfl | rfl | rfl | rfl | rfl | rfl | rfl | rfl | rfl | rfl | rfl | rfl <;>
            first | exact .inl rfl | exact .inr rfl | cases hd
        rcases this with e | e <;> rw [e]
        · exact (has_iff _).1 h2
        · exact (has_iff _).1 h3
    have hc : catsOf (specArg d "categories") = .ok (taken "categories" (.set []) (d.get? "categories")) := by
      have : specArg d "categories" = (d.get? "categories").getD .none := rfl
      rw [this]
      unfold catsOf
      rw [isNone]
      cases d.get? "categories" with
      | none => rfl
      | some v => cases v <;> rfl
    refine ⟨[("dtstart", specArg d "dtstart"), ("duration", specArg d "duration"), ("title", specArg d "title"),
      ("description", specArg d "description"), ("status", specArg d "status"), ("location", specArg d "location"),
      ("organizer", specArg d "organizer"), ("recurrence", specArg d "recurrence"), ("allday", specArg d "allday"),
      ("categories", taken "categories" (.set []) (d.get? "categories")), ("transparent", specArg d "transparent"),
      ("access", specArg d "access"), ("document", specArg d "document"), ("attendees", specArg d "attendees")],
      ⟨1, fun W _ n hn => ?_⟩, ?_⟩
    · obtain ⟨n, rfl⟩ : ∃ k, n = k + 1 := ⟨n - 1, by omega⟩
      rw [(spec_kw W n d).1 hf]
      unfold specFrom
      rw [hc, M_bind_ok]
    · refine ⟨rfl, fun q hq => ?_⟩
      simp only [specKeywords, List.mem_cons, List.not_mem_nil, or_false] at hq
      rcases hq with rfl | rfl | rfl | rfl | rfl | rfl | rfl | rfl | rfl | rfl | rfl | rfl | rfl | rfl <;>
        simp only [getAttr, String.reduceEq, ↓reduceIte, Option.getD_some, Option.getD_none]
      all_goals first | rfl | exact congrArg Except.ok (hv _ _ (by decide) _)
  · intro h
    have hf : ¬ KwFits specParams d := by
      intro hf
      rcases h with ⟨p, hp, hn⟩ | h | h
      · obtain ⟨q, hq, e⟩ := hf.1 p hp
        exact hn (by rw [names]; exact List.mem_map.2 ⟨q, hq, e⟩)
      · have := (has_iff "dtstart").2 (hf.2 ("dtstart", none) (by simp [specParams, Source.EventSpecification_init]) rfl)
        rw [h] at this
        cases this
      · have := (has_iff "duration").2 (hf.2 ("duration", none) (by simp [specParams, Source.EventSpecification_init]) rfl)
        rw [h] at this
        cases this
    refine ⟨1, fun W _ n hn => ?_⟩
    obtain ⟨n, rfl⟩ : ∃ k, n = k + 1 := ⟨n - 1, by omega⟩
    exact (spec_kw W n d).2 hf

/-- C146, concrete: a start, no duration and a title; a title only. -/
example : (∃ attrs, MakesWith "EventSpecification" [("dtstart", .datetime Sample.day), ("duration", .none), ("title", .str "start")]
      (.ok (.obj "EventSpecification" attrs)) ∧ getAttr "title" attrs = .ok (.str "start") ∧ getAttr "access" attrs = .ok (.str "PUBLIC")) ∧
    MakesWith "EventSpecification" [("title", .str "start")] (.error (.py .TypeError)) := by
  refine ⟨?_, (C146_keywords _).2 (.inr (.inl rfl))⟩
  obtain ⟨attrs, h1, _, h2⟩ := (C146_keywords [("dtstart", .datetime Sample.day), ("duration", .none), ("title", .str "start")]).1
    (by simp [specKeywords]) rfl rfl
  exact ⟨attrs, h1, h2 ("title", some (.str "")) (by simp [specKeywords]), h2 ("access", some (.str "PUBLIC")) (by simp [specKeywords])⟩

/-! ### attendees -/

theorem setAttr_same {x : String} {v : Val} : ∀ {l : List (String × Val)}, getAttr x l = .ok v → setAttr x v l = l
  | [], h => by cases h
  | (k, u) :: l, h => by
    unfold getAttr at h
    unfold setAttr
    by_cases e : k = x
    · rw [if_pos e] at h ⊢
      injection h with h
      rw [h, e]
    · rw [if_neg e] at h ⊢
      rw [setAttr_same h]

theorem getAttr_setAttr (x : String) (v : Val) : ∀ l : List (String × Val), getAttr x (setAttr x v l) = .ok v
  | [] => by simp [setAttr, getAttr]
  | (k, u) :: l => by
    unfold setAttr
    by_cases e : k = x
    · rw [if_pos e, getAttr, if_pos e]
    · rw [if_neg e, getAttr, if_neg e, getAttr_setAttr x v l]

theorem getAttr_setAttr_ne (x y : String) (v : Val) (h : y ≠ x) : ∀ l : List (String × Val), getAttr y (setAttr x v l) = getAttr y l
  | [] => by simp [setAttr, getAttr, h.symm]
  | (k, u) :: l => by
    unfold setAttr
    by_cases e : k = x
    · rw [if_pos e, getAttr, getAttr, if_neg (fun e' => h (e'.symm.trans e)), if_neg (fun e' => h (e'.symm.trans e))]
    · rw [if_neg e, getAttr, getAttr, getAttr_setAttr_ne x y v h l]

/-- `L'` is `L` but for the storage manager of the attendees, who now use `s`. -/
def MovedTo (L L' : Listing) (s : Storage) (a : AttId) : Prop :=
  L'.cats = L.cats ∧ L'.Uses s a ∧ ∀ x, x ≠ "_storage_manager" → getAttr x (L'.person a) = getAttr x (L.person a)

/-- C146: `createEvent` of an attendee, as written, at a time, with keywords from which a specification is made, whatever they say
about the organizer.  The event is made from that specification with the attendee as the organizer, and is found in the storage that
the attendee uses afterwards, under an id made from the time, the storage and the host.  If an entry of the list of attendees is
bad, the exception is raised and the attendee is as before. -/
theorem C146_create (L : Listing) (w : World) (now : Int) (h : dtInRange now = true) (fqdn : String) (a : AttId)
    (ha : L.Uses w.store a) (hp : getAttr "_attendee_source" (L.person a) = .error (.py .AttributeError)) (d : Dict String Val)
    (s : Spec) (hs : Spec.Moderate s) (hd : @MakesWith (Source.world now fqdn) "EventSpecification" d (.ok (ofSpec L s))) :
    ∃ u kw, IdOf now (w.store.id ++ "-" ++ toString w.store.events.length) w.store.host u ∧
    (∀ x, badEntry s = some x → @Does (Source.world now fqdn) (ofAttendee L a) "createEvent" [ofMap d]
      [ofAttendee L a, kw] [] (some (.py x)) .none) ∧
    (∀ e, newEvent u { s with organizer := some a } = .ok e →
      e.organizerId = some a ∧
      ∃ st L', st.map = w.store.map.put u (some e) ∧ MovedTo L L' st a ∧
        @Does (Source.world now fqdn) (ofAttendee L a) "createEvent" [ofMap d]
          [ofAttendee L' a, kw] [.obj "EventCreatedEvent" [("event", ofEvent L e)]] none (ofEvent L e)) := by
  let _ : Source.Globals := Source.world now fqdn
  have _ : Weekdays := ⟨rfl⟩
  have hs' : Spec.Moderate { s with organizer := some a } := hs
  have hb : badEntry { s with organizer := some a } = badEntry s := rfl
  obtain ⟨u, hu, c1, c2⟩ := C143_create L w now h fqdn { s with organizer := some a } hs'
  have step : ∀ {m' : Storage} {out : List Val} {fin : Option Stop} {v : Val},
      Does (ofManager L w.store) "createEventFromSpecification" [.none, ofSpec L { s with organizer := some a }]
        [ofManager L m', .none, ofSpec L { s with organizer := some a }] out fin v →
      Does (ofAttendee L a) "createEvent" [ofMap d] [attendeeWith L m' a, ofMap (Dict.set d "organizer" (ofAttendee L a))] out fin
        (if fin = none then (if fin = none then v else .none) else .none) := by
    intro m' out fin v ⟨N', hN'⟩
    obtain ⟨N, hN⟩ := hd
    refine ⟨N + N' + 3, fun W hW n hn => ?_⟩
    obtain ⟨n, rfl⟩ : ∃ k, n = k + 3 := ⟨n - 3, by omega⟩
    have h' := hN' W (by omega) (n + 1) (by omega)
    have hk := kw_create_prog W (n + 1) L w.store m' .none .none (Dict.set d "organizer" (ofAttendee L a)) { s with organizer := some a }
      out fin v (spec_organizer W n L d s a (hN W (by omega) (n + 1) (by omega))) (.inl rfl) h'
    exact att_create_prog W (n + 1) L w.store m' a ha hp d out fin _ hk
  refine ⟨u, ofMap (Dict.set d "organizer" (ofAttendee L a)), hu, fun x hx => ?_, fun e he => ⟨(newEvent_participation he).1, ?_⟩⟩
  · have hk := step (c1 x (hb.trans hx))
    have : attendeeWith L w.store a = ofAttendee L a := by
      unfold attendeeWith ofAttendee
      rw [setAttr_same]
      exact ha
    rw [this] at hk
    exact hk
  · obtain ⟨st, k1, k2⟩ := c2 e he
    refine ⟨st, { L with person := fun b => setAttr "_storage_manager" (ofManager L st) (L.person b) }, k1, ⟨rfl, ?_, ?_⟩, step k2⟩
    · unfold Listing.Uses
      exact getAttr_setAttr ..
    · exact fun x hx => getAttr_setAttr_ne _ _ _ hx _

theorem KwFits_unset {kw : List (String × Val)} {v : Val} (h : KwFits specParams (Dict.set kw "organizer" v)) : KwFits specParams kw := by
  have hk : ∀ k : String, k ≠ "organizer" → ((∃ p ∈ kw, p.1 = k) ↔ ∃ p ∈ Dict.set kw "organizer" v, p.1 = k) := by
    intro k hne
    have hs : ∀ d : List (String × Val), (∃ p ∈ d, p.1 = k) ↔ Dict.get? d k ≠ none := fun d => by simp [Dict.get?]
    rw [hs, hs, get_set_other kw "organizer" k v hne]
  refine ⟨fun p hp => ?_, fun q hq hd => ?_⟩
  · by_cases e : p.1 = "organizer"
    · exact ⟨("organizer", some .none), by simp [specParams, Source.EventSpecification_init], e.symm⟩
    · obtain ⟨p', hp', e'⟩ := (hk p.1 e).1 ⟨p, hp, rfl⟩
      obtain ⟨q, hq, e''⟩ := h.1 p' hp'
      exact ⟨q, hq, e''.trans e'⟩
  · have hne : q.1 ≠ "organizer" := by
      simp only [specParams, Source.EventSpecification_init, List.tail_cons, List.mem_cons, List.not_mem_nil, or_false] at hq
      rcases hq with rfl | rfl | rfl | rfl | rfl | rfl | rfl | rfl | rfl | rfl | rfl | rfl | rfl | rfl <;>
        first | (simp; done) | cases hd
    exact (hk q.1 hne).2 (h.2 q hq hd)

/-- C146: with a keyword that does not exist, or without `dtstart` or `duration`, `createEvent` of an attendee raises TypeError; the
attendee is as before and nobody is notified. -/
theorem C146_rejected (L : Listing) (s : Storage) (a : AttId) (ha : L.Uses s a)
    (hp : getAttr "_attendee_source" (L.person a) = .error (.py .AttributeError)) (d : Dict String Val)
    (hd : (∃ p ∈ d, p.1 ∉ specKeywords.map (·.1)) ∨ d.has "dtstart" = false ∨ d.has "duration" = false) :
    ∃ kw, Does (ofAttendee L a) "createEvent" [ofMap d] [ofAttendee L a, kw] [] (some (.py .TypeError)) .none := by
  have hf : ¬ KwFits specParams d := by
    intro hf
    obtain ⟨N, hN⟩ := (C146_keywords d).2 hd
    have h1 := hN (N + 1) (by omega) (N + 1) (by omega)
    rw [(spec_kw (N + 1) N d).1 hf] at h1
    unfold specFrom catsOf at h1
    cases hj : specArg d "categories" with
    | obj c x =>
      have : Val.is (.obj c x) .none = .ok false := by unfold Val.is; split <;> simp_all
      rw [hj, this] at h1
      cases h1
    | _ => rw [hj] at h1; cases h1
  refine ⟨ofMap (Dict.set d "organizer" (ofAttendee L a)), ?_⟩
  have same : attendeeWith L s a = ofAttendee L a := by
    unfold attendeeWith ofAttendee
    rw [setAttr_same]
    exact ha
  refine ⟨3, fun W _ n hn => ?_⟩
  obtain ⟨n, rfl⟩ : ∃ k, n = k + 3 := ⟨n - 3, by omega⟩
  have hk := kw_create_error W (n + 1) L s .none (Dict.set d "organizer" (ofAttendee L a)) (.py .TypeError)
    ((spec_kw W n _).2 (fun h => hf (KwFits_unset h)))
  have := att_create_prog W (n + 1) L s s a ha hp d [] (some (.py .TypeError)) .none hk
  rw [same] at this
  exact this

namespace Sample

/-- Attendees who use an empty storage. -/
def newcomers : Listing := ⟨fun _ => [], fun _ => [("_name", .str "somebody"), ("_storage_manager", ofManager listing ⟨"st", "host", []⟩)]⟩

/-- Keywords for a meeting that somebody else should organize. -/
def proposal : Dict String Val :=
  [("dtstart", .datetime day), ("organizer", ofAttendee newcomers "bob"), ("duration", .delta 3600000000), ("title", .str "talk")]

/-- The specification they are for. -/
def proposed : Spec := { dtstart := day, duration := some 3600000000, title := "talk", organizer := some "bob" }

end Sample

/-- C146, concrete: the keywords make the specification, which has no bad entries. -/
example : @MakesWith (Source.world Sample.day "box") "EventSpecification" Sample.proposal (.ok (ofSpec Sample.newcomers Sample.proposed)) ∧
    Sample.newcomers.Uses ⟨"st", "host", []⟩ "alice" ∧
    getAttr "_attendee_source" (Sample.newcomers.person "alice") = .error (.py .AttributeError) ∧
    Spec.Moderate Sample.proposed ∧ badEntry Sample.proposed = none ∧
    (∃ e, newEvent "u" { Sample.proposed with organizer := some "alice" } = .ok e ∧ e.organizerId = some "alice" ∧ e.getStatus "bob" = none) := by
  refine ⟨⟨1, fun W _ n hn => ?_⟩, rfl, rfl, fun h => (by cases h), rfl, _, rfl, rfl, rfl⟩
  obtain ⟨n, rfl⟩ : ∃ k, n = k + 1 := ⟨n - 1, by omega⟩
  let _ : Source.Globals := Source.world Sample.day "box"
  have hf : KwFits specParams Sample.proposal := by
    constructor <;> simp [Sample.proposal, specParams, Source.EventSpecification_init]
  exact ((spec_kw W n Sample.proposal).1 hf).trans rfl

/-- C146, concrete: a proposal that says nothing about its duration. -/
example : ∃ kw, Does (ofAttendee Sample.newcomers "alice") "createEvent" [ofMap [("dtstart", .datetime Sample.day)]]
    [ofAttendee Sample.newcomers "alice", kw] [] (some (.py .TypeError)) .none :=
  C146_rejected Sample.newcomers ⟨"st", "host", []⟩ "alice" rfl rfl _ (.inr (.inr rfl))

/-- C146, concrete: so Alice organizes it. -/
example : ∃ u kw st L' e, IdOf Sample.day "st-0" "host" u ∧ st.map u = some e ∧ e.organizerId = some "alice" ∧
    MovedTo Sample.newcomers L' st "alice" ∧
    @Does (Source.world Sample.day "box") (ofAttendee Sample.newcomers "alice") "createEvent" [ofMap Sample.proposal]
      [ofAttendee L' "alice", kw] [.obj "EventCreatedEvent" [("event", ofEvent Sample.newcomers e)]] none (ofEvent Sample.newcomers e) := by
  have hd : @MakesWith (Source.world Sample.day "box") "EventSpecification" Sample.proposal (.ok (ofSpec Sample.newcomers Sample.proposed)) := by
    refine ⟨1, fun W _ n hn => ?_⟩
    obtain ⟨n, rfl⟩ : ∃ k, n = k + 1 := ⟨n - 1, by omega⟩
    let _ : Source.Globals := Source.world Sample.day "box"
    have hf : KwFits specParams Sample.proposal := by
      constructor <;> simp [Sample.proposal, specParams, Source.EventSpecification_init]
    exact ((spec_kw W n Sample.proposal).1 hf).trans rfl
  obtain ⟨u, kw, hu, _, h2⟩ := C146_create Sample.newcomers ⟨⟨"st", "host", []⟩, []⟩ Sample.day (by decide +kernel) "box" "alice" rfl rfl
    Sample.proposal Sample.proposed (fun h => by cases h) hd
  obtain ⟨e, he⟩ : ∃ e, newEvent u { Sample.proposed with organizer := some "alice" } = .ok e := ⟨_, rfl⟩
  obtain ⟨k1, st, L', k2, k3, k4⟩ := h2 e he
  refine ⟨u, kw, st, L', e, hu, ?_, k1, k3, k4⟩
  rw [k2]
  simp [EventMap.put]

end CalCore
