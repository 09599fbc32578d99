import Verif.Lemmas.SourceHistory
import Verif.Props.Histories
import Verif.Props.Store
import Verif.Props.WrittenImportAll
/- Property C147: sequences of calls, carried out with the functions as they are written. -/
namespace CalCore
open Spec Lang

/-! ### any sequence of calls -/

/-- C147: sequences of calls, as written.  The client creates events through the storage manager (with or without an id) and through
attendees, gets events, deletes them, sets statuses and roles, invites, makes them whole-day events and sets specifications on them,
in any order, and goes on when a call raises.  From a sound state there is exactly one way this can go: the storage manager ends up
with the storage that the model has, and what was sent are the notifications that the model logs, in this order. -/
theorem C147_history (fqdn : String) (L : Listing) (hL : L.Faithful) (w : World) (hw : Sound w) (ops : List Op)
    (ho : ∀ op ∈ ops, Op.Ordinary op) :
    ∃ out notes, (w.run ops).log = w.log ++ notes ∧ List.Forall₂ (Reports L) out notes ∧
      Runs fqdn L (ofManager L w.store) ops (ofManager L (w.run ops).store) out ∧
      ∀ m' out', Runs fqdn L (ofManager L w.store) ops m' out' → m' = ofManager L (w.run ops).store ∧ out' = out := by
  obtain ⟨out, ⟨notes, h1, h2⟩, h⟩ := runs_iff fqdn L hL ops ho w hw
  exact ⟨out, notes, h1, h2, (h _ _).2 ⟨rfl, rfl⟩, fun m' o hr => (h _ _).1 hr⟩

/-- C147: the same for one call, which also ends as the model says. -/
theorem C147_call (fqdn : String) (L : Listing) (hL : L.Faithful) (w : World) (hw : Sound w) (op : Op) (ho : Op.Ordinary op) :
    ∃ out notes, (w.step op).1.log = w.log ++ notes ∧ List.Forall₂ (Reports L) out notes ∧
      Acts fqdn L (ofManager L w.store) op (ofManager L (w.step op).1.store) out (endOf (w.step op).2) ∧
      ∀ m' out' fin, Acts fqdn L (ofManager L w.store) op m' out' fin →
        m' = ofManager L (w.step op).1.store ∧ out' = out ∧ fin = endOf (w.step op).2 := by
  obtain ⟨out, ⟨notes, h1, h2⟩, h⟩ := acts_iff fqdn L hL w hw op ho
  exact ⟨out, notes, h1, h2, (h _ _ _).2 ⟨rfl, rfl, rfl⟩, fun m' o fin hr => (h _ _ _).1 hr⟩

/-- C147: the same with imports among the calls, of whatever the parser finds in the text: every way the sequence can go leaves the
storage manager with the storage of the model, and what was sent are notifications of the kinds and about the events that the model
logs, in this order; and there is such a way. -/
theorem C147_imports (fqdn : String) (L : Listing) (hL : L.Faithful) (w : World) (hw : Sound w) (ops : List Op)
    (ho : ∀ op ∈ ops, Op.Usable L op) :
    (∃ m' out, Runs fqdn L (ofManager L w.store) ops m' out) ∧
    ∀ m' out, Runs fqdn L (ofManager L w.store) ops m' out → m' = ofManager L (w.run ops).store ∧
      ∃ notes, (w.run ops).log = w.log ++ notes ∧ List.Forall₂ (Reports L) out notes := by
  obtain ⟨⟨o, h⟩, h'⟩ := runs_usable fqdn L hL ops ho w hw
  exact ⟨⟨_, o, h⟩, h'⟩

/-- C147: one call, an import or another, also ends as the model says. -/
theorem C147_any_call (fqdn : String) (L : Listing) (hL : L.Faithful) (w : World) (hw : Sound w) (op : Op) (ho : Op.Usable L op) :
    (∃ m' out fin, Acts fqdn L (ofManager L w.store) op m' out fin) ∧
    ∀ m' out fin, Acts fqdn L (ofManager L w.store) op m' out fin → m' = ofManager L (w.step op).1.store ∧ fin = endOf (w.step op).2 ∧
      ∃ notes, (w.step op).1.log = w.log ++ notes ∧ List.Forall₂ (Reports L) out notes := by
  obtain ⟨⟨o, h⟩, h'⟩ := acts_usable fqdn L hL w hw op ho
  exact ⟨⟨_, o, _, h⟩, fun m' out fin hx => ⟨(h' _ _ _ hx).1, (h' _ _ _ hx).2.2, (h' _ _ _ hx).2.1⟩⟩

/-- A storage manager with a new storage. -/
def emptyManager (id host : String) : Val :=
  .obj "StorageManager" [("_storage", .obj "MemoryStorage" [("_storage_id", .str id), ("_events", .dict []), ("_hostname", .str host)])]

theorem fresh_sound (id host : String) : Sound (freshWorld id host) :=
  ⟨freshWorld_wf id host, fun _ _ h => (by cases h), fun _ _ h => (by cases h)⟩

theorem usable_ordinary {L : Listing} {op : Op} (h : Op.Ordinary op) : Op.Usable L op := by
  cases op with
  | import_ => exact h.elim
  | _ => exact h

theorem from_new {fqdn : String} {L : Listing} (hL : L.Faithful) {id host : String} {ops : List Op} (ho : ∀ op ∈ ops, Op.Usable L op)
    {m : Val} {out : List Val} (h : Runs fqdn L (emptyManager id host) ops m out) :
    m = ofManager L ((freshWorld id host).run ops).store ∧ List.Forall₂ (Reports L) out ((freshWorld id host).run ops).log := by
  obtain ⟨_, h3⟩ := C147_imports fqdn L hL (freshWorld id host) (fresh_sound id host) ops ho
  obtain ⟨rfl, notes, h1, h2⟩ := h3 m out h
  have : notes = ((freshWorld id host).run ops).log := by rw [h1]; rfl
  exact ⟨rfl, this ▸ h2⟩

/-! ### what follows for the text -/

/-- The kind of a notification, and the id of the event it has. -/
def named : Val → Option (String × String)
  | .obj c [("event", .obj _ attrs)] =>
    match getAttr "unique_id" attrs with
    | .ok (.str u) => some (c, u)
    | _ => none
  | _ => none

/-- Whether the latest notification about the creation or the deletion of the event with the id `u` is about its creation; the latest
ones come first. -/
def lastCreated (u : String) : List Val → Bool
  | [] => false
  | v :: older =>
    if named v = some ("EventCreatedEvent", u) then true
    else if named v = some ("EventDeletedEvent", u) then false
    else lastCreated u older

theorem lastCreated_subscriber (L : Listing) (u : Uid) {out : List Val} {notes : List Note} (h : List.Forall₂ (Reports L) out notes) :
    lastCreated u out = subscriber notes u := by
  induction h with
  | nil => rfl
  | @cons v n out notes hv _ ih =>
    obtain ⟨e, rfl, he⟩ := hv
    unfold lastCreated subscriber
    cases n with
    | created k =>
      have : named (ofNote L e (.created k)) = some ("EventCreatedEvent", k) := by rw [← show e.uid = k from he]; rfl
      rw [this, ih]
      by_cases hu : u = k
      · rw [if_pos (by rw [hu])]
        simp [hu]
      · rw [if_neg (by simpa using fun h => hu h.symm), if_neg (by simp)]
        simp [hu]
    | deleted k =>
      have : named (ofNote L e (.deleted k)) = some ("EventDeletedEvent", k) := by rw [← show e.uid = k from he]; rfl
      rw [this, ih]
      by_cases hu : u = k
      · rw [if_neg (by simp), if_pos (by rw [hu])]
        simp [hu]
      · rw [if_neg (by simp), if_neg (by simpa using fun h => hu h.symm)]
        simp [hu]
    | modified k =>
      have : named (ofNote L e (.modified k)) = some ("EventModifiedEvent", e.uid) := rfl
      rw [this, ih, if_neg (by simp), if_neg (by simp)]
    | participation k a o o' =>
      have : named (ofNote L e (.participation k a o o')) = none := rfl
      rw [this, ih, if_neg (by simp), if_neg (by simp)]

/-- C147: after any calls on a new storage, imports included, `hasEvent` as written returns true for exactly those ids for which the latest notification
about a creation or a deletion told of the creation. -/
theorem C147_subscriber (fqdn : String) (L : Listing) (hL : L.Faithful) (id host : String) (ops : List Op)
    (ho : ∀ op ∈ ops, Op.Usable L op) (m : Val) (out : List Val) (h : Runs fqdn L (emptyManager id host) ops m out) (u : Uid) :
    Answers m "hasEvent" [.str u] (.ok (.bool (lastCreated u out.reverse))) := by
  obtain ⟨rfl, hr⟩ := from_new hL ho h
  have hs := C34_mirror id host ops u
  rw [lastCreated_subscriber L u (List.forall₂_reverse_iff.2 hr), hs]
  exact answers_of 0 3 (fun W n _ => manager_hasEvent W n L _ u)

/-- C147: after any calls on a new storage, imports included, an event that `getEvent` returns for an id has this id. -/
theorem C147_own_id (fqdn : String) (L : Listing) (hL : L.Faithful) (id host : String) (ops : List Op)
    (ho : ∀ op ∈ ops, Op.Usable L op) (m : Val) (out : List Val) (h : Runs fqdn L (emptyManager id host) ops m out) (u : Uid) (ev : Val)
    (hg : Answers m "getEvent" [.str u] (.ok ev)) :
    ∃ attrs, ev = .obj "Event" attrs ∧ getAttr "unique_id" attrs = .ok (.str u) := by
  obtain ⟨rfl, _⟩ := from_new hL ho h
  have ha := answers_getEvent L ((freshWorld id host).run ops).store u
  have := Answers.unique hg ha
  cases hx : ((freshWorld id host).run ops).store.getEvent u with
  | error x => rw [hx, toM_error] at this; cases this
  | ok e =>
    rw [hx, toM_ok] at this
    injection this with this
    have hu := (run_wf id host ops).uid _ _ (get_of_getEvent hx)
    refine ⟨eventAttrs L e, this, ?_⟩
    rw [← hu]
    rfl

/-- C147: calls about different events can be interleaved in any way: if all calls name the event they are about, and the calls about
each event are the same, in the same order, then `getEvent` as written has the same answers afterwards. -/
theorem C147_interleave (fqdn : String) (L : Listing) (hL : L.Faithful) (id host : String) (ops ops' : List Op)
    (ho : ∀ op ∈ ops, Op.Ordinary op) (ho' : ∀ op ∈ ops', Op.Ordinary op)
    (ht : ∀ op ∈ ops, opTarget op ≠ none) (ht' : ∀ op ∈ ops', opTarget op ≠ none) (hc : ∀ u, callsAbout u ops = callsAbout u ops')
    (m m' : Val) (out out' : List Val) (h : Runs fqdn L (emptyManager id host) ops m out)
    (h' : Runs fqdn L (emptyManager id host) ops' m' out') (u : Uid) (r : M Val) :
    Answers m "getEvent" [.str u] r ↔ Answers m' "getEvent" [.str u] r := by
  obtain ⟨rfl, _⟩ := from_new hL (fun op h => usable_ordinary (ho op h)) h
  obtain ⟨rfl, _⟩ := from_new hL (fun op h => usable_ordinary (ho' op h)) h'
  have hg := (C108_interleave (freshWorld id host) (freshWorld_wf id host) ops ops' ht ht' hc u).1
  have hs : ((freshWorld id host).run ops).store.getEvent u = ((freshWorld id host).run ops').store.getEvent u := by
    unfold Storage.getEvent
    rw [hg]
  have a := answers_getEvent L ((freshWorld id host).run ops).store u
  have b := answers_getEvent L ((freshWorld id host).run ops').store u
  rw [hs] at a
  exact ⟨fun x => Answers.unique x a ▸ b, fun x => Answers.unique x b ▸ a⟩

namespace Sample

/-- A meeting is made, carol is invited and accepts, dave organizes a trip, the meeting becomes a whole-day event and is deleted; a
call for it afterwards raises. -/
def busyWeek : List Op :=
  [.create day (some "a") meeting, .invite "a" ["carol", "bob"], .setStatus "a" "carol" (some "ACCEPTED"),
   .attendeeCreate day "dave" trip, .alldayAdjust "a", .edit "a" trip, .setRole "a" "carol" "CHAIR", .delete "a", .setRole "a" "bob" "CHAIR"]

theorem busyWeek_ordinary : ∀ op ∈ busyWeek, Op.Ordinary op := by
  have h1 : Lasting meeting.duration := by intro x hx; injection hx with hx; subst hx; decide +kernel
  have h2 : Lasting trip.duration := by intro x hx; injection hx with hx; subst hx; decide +kernel
  intro op hop
  simp only [busyWeek, List.mem_cons, List.not_mem_nil, or_false] at hop
  rcases hop with rfl | rfl | rfl | rfl | rfl | rfl | rfl | rfl | rfl
  · exact ⟨by decide +kernel, h1⟩
  · trivial
  · trivial
  · exact ⟨by decide +kernel, h2⟩
  · trivial
  · exact h2
  · trivial
  · trivial
  · trivial

end Sample

/-- C147, concrete: the calls can be carried out with the text; five notifications are sent; the meeting is gone and the trip is
there. -/
example : ∃ m out, Runs "box" Sample.listing (emptyManager "s" "h") Sample.busyWeek m out ∧ out.length = 5 ∧
    Answers m "hasEvent" [.str "a"] (.ok (.bool false)) ∧
    ((freshWorld "s" "h").run Sample.busyWeek).store.events.length = 1 := by
  obtain ⟨out, notes, h1, h2, h3, _⟩ := C147_history "box" Sample.listing Sample.listing_faithful (freshWorld "s" "h") (fresh_sound _ _)
    Sample.busyWeek Sample.busyWeek_ordinary
  have hn : notes = ((freshWorld "s" "h").run Sample.busyWeek).log := by rw [h1]; rfl
  refine ⟨_, out, h3, ?_, ?_, by decide +kernel⟩
  · rw [h2.length_eq, hn]
    decide +kernel
  · have := C147_subscriber "box" Sample.listing Sample.listing_faithful "s" "h" Sample.busyWeek
      (fun op h => usable_ordinary (Sample.busyWeek_ordinary op h)) _ out h3 "a"
    rw [lastCreated_subscriber Sample.listing "a" (List.forall₂_reverse_iff.2 h2), hn] at this
    have hs : subscriber ((freshWorld "s" "h").run Sample.busyWeek).log.reverse "a" = false := by decide +kernel
    rw [hs] at this
    exact this

/-- C147, concrete: the same, and then Bob and Alice import a talk into their calendar and get rid of everything else in it. -/
example : (∀ op ∈ Sample.busyWeek ++ [.import_ (fun _ => 0) Sample.team Sample.people [Sample.talk] none none none true],
      Op.Usable Sample.listing op) ∧
    ((freshWorld "s" "h").run (Sample.busyWeek ++
      [.import_ (fun _ => 0) Sample.team Sample.people [Sample.talk] none none none true])).store.hasEvent "n" = true := by
  refine ⟨fun op hop => ?_, by decide +kernel⟩
  rcases List.mem_append.1 hop with h | h
  · exact usable_ordinary (Sample.busyWeek_ordinary op h)
  · rw [List.mem_singleton.1 h]
    refine ⟨⟨_, .cons Sample.talk_component .nil⟩, fun v hv s hs => ?_⟩
    rw [List.mem_singleton.1 hv] at hs
    have hx : ∀ s, importSpec (fun _ => 0) Sample.team Sample.people Sample.talk = .ok s → s.duration.all
        (fun x => decide (-(999999999 * DAY) ≤ x ∧ x ≤ 999999999 * DAY)) = true := by
      have : (importSpec (fun _ => 0) Sample.team Sample.people Sample.talk).toOption.all (fun s => s.duration.all
          (fun x => decide (-(999999999 * DAY) ≤ x ∧ x ≤ 999999999 * DAY))) = true := by decide +kernel
      intro s hs
      rw [hs] at this
      exact this
    intro x hd
    have := hx s hs
    rw [hd] at this
    exact of_decide_eq_true this

/-- C147, concrete: the calls about two events, one after the other and mixed. -/
example : ∀ u, callsAbout u [.create 0 (some "a") Sample.meeting, .invite "a" ["carol"], .create 0 (some "b") Sample.trip, .delete "b"]
    = callsAbout u [.create 0 (some "b") Sample.trip, .create 0 (some "a") Sample.meeting, .delete "b", .invite "a" ["carol"]] := by
  intro u
  by_cases ha : u = "a"
  · subst ha; rfl
  · by_cases hb : u = "b"
    · subst hb; rfl
    · have ha' : ¬ "a" = u := fun h => ha h.symm
      have hb' : ¬ "b" = u := fun h => hb h.symm
      simp [callsAbout, opTarget, ha', hb']

end CalCore
