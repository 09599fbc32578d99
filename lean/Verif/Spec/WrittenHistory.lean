import Verif.Props.WrittenClock
import Verif.Model.History
import Verif.Spec.RepresentCalText
/- What it means to carry out a sequence of calls with the functions of the source text. -/
namespace CalCore.Lang
open CalCore.Spec
variable [Source.Globals]

/-- The id of the event that a call is made for, if the event has to be got from the storage manager. -/
def Op.about : Op → Option Uid
  | .delete u => some u
  | .setStatus u _ _ => some u
  | .setRole u _ _ => some u
  | .invite u _ => some u
  | .alldayAdjust u => some u
  | .edit u _ => some u
  | _ => none

/-- Calling a method for the event `ev` leaves `ev'`, sends `out` and ends with `fin`. -/
inductive Changes (L : Listing) (ev : Val) : Op → Val → List Val → Option Stop → Prop
  | setStatus {u : Uid} {a : AttId} {st : Option String} {ev' v : Val} {rest out : List Val} {fin : Option Stop}
      (h : Does ev "setParticipationStatus" [ofAttendee L a, ofOption .str st] (ev' :: rest) out fin v) :
      Changes L ev (.setStatus u a st) ev' out fin
  | setRole {u : Uid} {a : AttId} {r : String} {ev' v : Val} {rest out : List Val} {fin : Option Stop}
      (h : Does ev "setParticipationRole" [ofAttendee L a, .str r] (ev' :: rest) out fin v) :
      Changes L ev (.setRole u a r) ev' out fin
  | invite {u : Uid} {l : List AttId} {ev' v : Val} {rest out : List Val} {fin : Option Stop}
      (h : Does ev "invite" [.list (l.map (ofAttendee L))] (ev' :: rest) out fin v) : Changes L ev (.invite u l) ev' out fin
  | alldayAdjust {u : Uid} {ev' v : Val} {rest out : List Val} {fin : Option Stop}
      (h : Does ev "alldayAdjust" [] (ev' :: rest) out fin v) : Changes L ev (.alldayAdjust u) ev' out fin
  | edit {u : Uid} {s : CalCore.Spec} {ev' s' v : Val} {out : List Val} {fin : Option Stop}
      (h : Does (ofSpec L s) "setOnObject" [ev] [s', ev'] out fin v) : Changes L ev (.edit u s) ev' out fin

/-- A call leaves the storage manager `m'` instead of `m`, sends the notifications `out` and ends with `fin`.  An event is got with
`getEvent`; it is the object that is stored, so what a method changes in it is changed in the storage.  An attendee who creates an
event uses `m` before and `m'` afterwards, and so does a calendar that imports, whose parser finds components that say `vs`. -/
inductive Acts (fqdn : String) (L : Listing) (m : Val) : Op → Val → List Val → Option Stop → Prop
  | create {now : DateTime} {u : Option Uid} {s : CalCore.Spec} {m' v : Val} {rest out : List Val} {fin : Option Stop}
      (h : @Does (Source.world now fqdn) m "createEventFromSpecification" [ofOption .str u, ofSpec L s] (m' :: rest) out fin v) :
      Acts fqdn L m (.create now u s) m' out fin
  | attendeeCreate {now : DateTime} {a : AttId} {s : CalCore.Spec} {m' v : Val} {rest out : List Val} {fin : Option Stop}
      {person : AttId → List (String × Val)} {attrs : List (String × Val)} {d : Dict String Val}
      (hm : getAttr "_storage_manager" (person a) = .ok m)
      (hp : getAttr "_attendee_source" (person a) = .error (.py .AttributeError))
      (hd : @MakesWith (Source.world now fqdn) "EventSpecification" d (.ok (ofSpec ⟨L.cats, person⟩ s)))
      (h : @Does (Source.world now fqdn) (ofAttendee ⟨L.cats, person⟩ a) "createEvent" [ofMap d] (.obj "Attendee" attrs :: rest) out fin v)
      (hm' : getAttr "_storage_manager" attrs = .ok m') : Acts fqdn L m (.attendeeCreate now a s) m' out fin
  | missing {op : Op} {u : Uid} {x : Stop} (hu : Op.about op = some u) (h : Answers m "getEvent" [.str u] (.error x)) :
      Acts fqdn L m op m [] (some x)
  | delete {u : Uid} {ev m' v : Val} {rest out : List Val} {fin : Option Stop} (hg : Answers m "getEvent" [.str u] (.ok ev))
      (h : Does m "deleteEvent" [ev] (m' :: rest) out fin v) : Acts fqdn L m (.delete u) m' out fin
  | change {op : Op} {u : Uid} {ev ev' m' : Val} {out : List Val} {fin : Option Stop} (hu : Op.about op = some u)
      (hg : Answers m "getEvent" [.str u] (.ok ev)) (h : Changes L ev op ev' out fin) (hs : shareEvent ev' (.str u) m = .ok m') :
      Acts fqdn L m op m' out fin
  | import_ {tz : LocalTz} {c : Calendar} {src : CalCore.Source} {vs : List VEvent} {b e : Option DateTime} {cr : Option Criteria}
      {sync : Bool} {text : String} {ds : List (Dict String Val)} {flag m' : Val} {st st' : Storage} {out : List Val} {fin : Option Stop}
      (hm : ofManager L st = m) (hd : List.Forall₂ (Component L tz c src) vs ds) (hs : flag.truthy = sync)
      (h : Imports (.components ds) L src c text b e cr flag st st' out fin) (hm' : ofManager L st' = m') :
      Acts fqdn L m (.import_ tz c src vs b e cr sync) m' out fin

/-- A sequence of calls, with the notifications of all of them; a call that raises does not stop the client. -/
inductive Runs (fqdn : String) (L : Listing) : Val → List Op → Val → List Val → Prop
  | nil {m : Val} : Runs fqdn L m [] m []
  | cons {m m' m'' : Val} {op : Op} {ops : List Op} {o o' : List Val} {fin : Option Stop} (h : Acts fqdn L m op m' o fin)
      (t : Runs fqdn L m' ops m'' o') : Runs fqdn L m (op :: ops) m'' (o ++ o')

/-- A duration that can be rounded up to whole days: at most 999999999 days either way. -/
def Lasting (d : Option TimeDelta) : Prop := ∀ x, d = some x → -(999999999 * DAY) ≤ x ∧ x ≤ 999999999 * DAY

/-- A call that is no import, at a time that Python has, with a specification that has such a duration. -/
def Op.Ordinary : Op → Prop
  | .create now _ s => dtInRange now = true ∧ Lasting s.duration
  | .attendeeCreate now _ s => dtInRange now = true ∧ Lasting s.duration
  | .edit _ s => Lasting s.duration
  | .import_ .. => False
  | _ => True

/-- A call of that kind, or an import of components that the parser can represent and whose specifications have such durations. -/
def Op.Usable (L : Listing) : Op → Prop
  | .import_ tz c src vs _ _ _ _ => (∃ ds, List.Forall₂ (Component L tz c src) vs ds) ∧
      ∀ v ∈ vs, ∀ s, importSpec tz c src v = .ok s → Lasting s.duration
  | op => Op.Ordinary op

/-- What the calls rely on: every event is stored once, under its own id, has one status and one role at most for each attendee, and
has a duration that can be rounded up. -/
structure Sound (w : World) : Prop where
  wf : w.store.WF
  parts : ∀ k e, Dict.get? w.store.events k = some e → e.Parts
  lasting : ∀ k e, Dict.get? w.store.events k = some e → Lasting e.duration

end CalCore.Lang
