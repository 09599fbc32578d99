import Verif.Spec.WrittenHistory
import Verif.Props.WrittenAttendee
import Verif.Props.WrittenImportAll
/- Every call, as written, does to the storage manager what the step of the model does. -/
namespace CalCore.Lang
open CalCore.Spec
set_option linter.unusedSectionVars false

section
variable [Source.Globals]

theorem Does.unique {o : Val} {m : String} {args a a' out out' : List Val} {f f' : Option Stop} {v v' : Val}
    (h : Does o m args a out f v) (h' : Does o m args a' out' f' v') : a = a' ∧ out = out' ∧ f = f' ∧ v = v' := by
  have := Answers.unique h h'
  unfold procVal at this
  injection this with this
  injection this with this
  injection this with h1 this
  injection this with h2 this
  injection this with h3 _
  injection h1 with h1 _
  injection h2 with h2 h4
  exact ⟨h1, h2, h4, h3⟩

/-! ### invitations: the notifications do not depend on the steps allowed -/

theorem invite_step_all (L : Listing) (e : Event) (he : (Dict.keys e.pstate).Nodup ∧ (Dict.keys e.prole).Nodup) (a : AttId) :
    ∃ vs, List.Forall₂ (Reports L) vs (e.inviteOne a).2.1 ∧ ∀ (W n : Nat) (A : Val) (x : Option Val) (out : List Val),
      forBody (Source.prog.ctx W (n + 3)) W (.name "attendee") Source.EventBase_invite_loop1 (ofAttendee L a)
        ⟨[("self", some (ofEvent L e)), ("attendees", some A), ("attendee", x)], out⟩
      = (⟨[("self", some (ofEvent L (e.inviteOne a).1)), ("attendees", some A), ("attendee", some (ofAttendee L a))], out ++ vs⟩,
          .next) := by
  by_cases h : e.getStatus a = Option.none
  · rw [inviteOne_none e a h]
    refine ⟨[ofNote L { e with pstate := Dict.set e.pstate a "NEEDS-ACTION" }
      (.participation e.uid a Option.none (some "NEEDS-ACTION"))], .cons ⟨_, rfl, rfl⟩ .nil, fun W n A x out => ?_⟩
    have h1 := getStatus_prog W (n + 1) L e a
    rw [h, ofOption_none] at h1
    have h2 := setStatus_prog W n L e he a (some "NEEDS-ACTION")
    rw [setStatus_some e a (by decide) h] at h2
    simp only [ofOption_some, endOf] at h2
    have h3 := setRole_prog W (n + 1) L { e with pstate := Dict.set e.pstate a "NEEDS-ACTION" } a "REQ-PARTICIPANT"
    rw [setRole_ok _ _ (by decide)] at h3
    simp only [endOf] at h3
    lang [forBody, Source.EventBase_invite_loop1, ↓eval_method, on_event, callClass_some method_getParticipationStatus, h1,
      invoke_event, callClass_some method_setStatus, callClass_some method_setRole, h2, h3, after_var, putArgs_attendee, putArgs_const]
    rw [List.append_nil]
  · rw [inviteOne_some e a h]
    obtain ⟨s, hs⟩ := Option.ne_none_iff_exists'.1 h
    refine ⟨[], .nil, fun W n A x out => ?_⟩
    have h1 := getStatus_prog W (n + 1) L e a
    rw [hs, ofOption_some] at h1
    lang [forBody, Source.EventBase_invite_loop1, ↓eval_method, on_event, callClass_some method_getParticipationStatus, h1]
    rw [List.append_nil]

theorem invite_loop_all (L : Listing) (l : List AttId) :
    ∀ (e : Event), (Dict.keys e.pstate).Nodup ∧ (Dict.keys e.prole).Nodup →
    ∃ vs, List.Forall₂ (Reports L) vs (e.invite l).2.1 ∧ ∀ (W n : Nat) (A : Val) (x : Option Val) (out : List Val), ∃ y,
      forLoop (forBody (Source.prog.ctx W (n + 3)) W (.name "attendee") Source.EventBase_invite_loop1) (l.map (ofAttendee L))
        ⟨[("self", some (ofEvent L e)), ("attendees", some A), ("attendee", x)], out⟩
      = (⟨[("self", some (ofEvent L (e.invite l).1)), ("attendees", some A), ("attendee", y)], out ++ vs⟩, .next) := by
  induction l with
  | nil => intro e _; exact ⟨[], .nil, fun W n A x out => ⟨x, by rw [List.append_nil]; rfl⟩⟩
  | cons a l ih =>
    intro e he
    obtain ⟨v1, f1, h1⟩ := invite_step_all L e he a
    obtain ⟨v2, f2, h2⟩ := ih (e.inviteOne a).1 (inviteOne_nodup e he a)
    refine ⟨v1 ++ v2, ?_, fun W n A x out => ?_⟩
    · rw [invite_cons]
      exact List.rel_append f1 f2
    · obtain ⟨y, h2⟩ := h2 W n A (some (ofAttendee L a)) (out ++ v1)
      refine ⟨y, ?_⟩
      rw [List.map_cons]
      unfold forLoop
      rw [h1 W n A x out]
      simp only []
      rw [h2, invite_cons, List.append_assoc]

theorem does_invite (L : Listing) (e : Event) (he : e.Parts) (l : List AttId) :
    ∃ vs, List.Forall₂ (Reports L) vs (e.invite l).2.1 ∧
      Does (ofEvent L e) "invite" [.list (l.map (ofAttendee L))] [ofEvent L (e.invite l).1, .list (l.map (ofAttendee L))] vs
        (endOf (e.invite l).2.2) .none := by
  obtain ⟨vs, f, h⟩ := invite_loop_all L l e ⟨he.state, he.role⟩
  refine ⟨vs, f, answers_of 0 4 (fun W n _ => ?_)⟩
  obtain ⟨y, h⟩ := h W n (.list (l.map (ofAttendee L))) Option.none []
  have hc : Source.prog.call W (n + 4) "EventBase.invite" [ofEvent L e, .list (l.map (ofAttendee L))] []
      = .ok (procVal [ofEvent L (e.invite l).1, .list (l.map (ofAttendee L))] vs (endOf (e.invite l).2.2) .none) := by
    rw [call_eq (d := Source.EventBase_invite) rfl, invite_ok]
    lang [Source.EventBase_invite, h]
    rfl
  exact hc

/-! ### the parts of the steps -/

theorem share_stored (L : Listing) (s : Storage) (u : Uid) (e : Event) :
    shareEvent (ofEvent L e) (.str u) (ofManager L s) = .ok (ofManager L { s with events := Dict.set s.events u e }) := by
  have h := setItem_any (ofEvent L) s.events u e
  unfold ofManager ofStorage shareEvent
  simp only [getAttr, setAttr, String.reduceEq, ↓reduceIte, M_bind_ok, h]

theorem answers_getEvent (L : Listing) (s : Storage) (u : Uid) :
    Answers (ofManager L s) "getEvent" [.str u] (toM (ofEvent L) (s.getEvent u)) :=
  answers_of 0 2 (fun W n _ => manager_getEvent W n L s u)

theorem does_delete (L : Listing) (w : World) (hw : w.store.WF) (e : Event) :
    Does (ofManager L w.store) "deleteEvent" [ofEvent L e] [ofManager L (w.deleteEvent e.uid).1.store, ofEvent L e]
      (telling L "EventDeletedEvent" ((w.deleteEvent e.uid).2.map (fun _ => e))) (endOf (w.deleteEvent e.uid).2) .none :=
  answers_of 0 2 (fun W n _ => manager_deleteEvent_prog W n L w hw.nodup e)

end

theorem does_create (L : Listing) (w : World) (now : Int) (hn : dtInRange now = true) (fqdn : String) (u : Option Uid) (s : CalCore.Spec)
    (hs : Lasting s.duration) :
    @Does (Source.world now fqdn) (ofManager L w.store) "createEventFromSpecification" [ofOption .str u, ofSpec L s]
      [ofManager L (w.createEvent now u s).1.store, ofOption .str u, ofSpec L s]
      (telling L "EventCreatedEvent" (w.createEvent now u s).2)
      (endOf (w.createEvent now u s).2) (given (ofEvent L) (w.createEvent now u s).2) := by
  let _ : Source.Globals := Source.world now fqdn
  cases u with
  | none => exact answers_of 0 8 (fun W n _ => manager_auto_prog W n now fqdn hn L w s (fun _ => hs))
  | some u => exact answers_of 0 8 (fun W n _ => manager_createEvent_prog W n L w now u s (fun _ => hs))

theorem does_attendeeCreate (L : Listing) (w : World) (now : Int) (hn : dtInRange now = true) (fqdn : String) (a : AttId) (s : CalCore.Spec)
    (hs : Lasting s.duration) (ha : L.Uses w.store a) (hp : getAttr "_attendee_source" (L.person a) = .error (.py .AttributeError))
    (d : Dict String Val) (hd : @MakesWith (Source.world now fqdn) "EventSpecification" d (.ok (ofSpec L s))) :
    ∃ kw v, @Does (Source.world now fqdn) (ofAttendee L a) "createEvent" [ofMap d]
      [attendeeWith L (w.attendeeCreateEvent now a s).1.store a, kw]
      (telling L "EventCreatedEvent" (w.attendeeCreateEvent now a s).2) (endOf (w.attendeeCreateEvent now a s).2) v := by
  let _ : Source.Globals := Source.world now fqdn
  have _ : Weekdays := ⟨rfl⟩
  obtain ⟨N', hN'⟩ := does_create L w now hn fqdn Option.none { s with organizer := some a } hs
  obtain ⟨N, hN⟩ := hd
  refine ⟨ofMap (Dict.set d "organizer" (ofAttendee L a)),
    (if endOf (w.attendeeCreateEvent now a s).2 = Option.none then
      (if endOf (w.attendeeCreateEvent now a s).2 = Option.none then given (ofEvent L) (w.attendeeCreateEvent now a s).2 else .none)
      else .none), N + N' + 3, fun W hW n hn => ?_⟩
  obtain ⟨n, rfl⟩ : ∃ k, n = k + 3 := ⟨n - 3, by omega⟩
  have h' := hN' W (by omega) (n + 1) (by omega)
  have hk := kw_create_prog W (n + 1) L w.store _ .none .none (Dict.set d "organizer" (ofAttendee L a)) { s with organizer := some a }
    _ _ _ (spec_organizer W n L d s a (hN W (by omega) (n + 1) (by omega))) (.inl rfl) h'
  exact att_create_prog W (n + 1) L w.store _ a ha hp d _ _ _ hk

theorem makes_all [Source.Globals] (L : Listing) (s : CalCore.Spec) :
    MakesWith "EventSpecification" (specAttrs L s) (.ok (ofSpec L s)) := by
  refine ⟨1, fun W _ n hn => ?_⟩
  obtain ⟨n, rfl⟩ : ∃ k, n = k + 1 := ⟨n - 1, by omega⟩
  have hf : KwFits specParams (specAttrs L s) := by
    constructor
    · intro p hp
      simp only [specAttrs, List.mem_cons, List.not_mem_nil, or_false] at hp
      rcases hp with rfl | rfl | rfl | rfl | rfl | rfl | rfl | rfl | rfl | rfl | rfl | rfl | rfl | rfl <;>
        simp [specParams, Source.EventSpecification_init]
    · intro q hq _
      simp only [specParams, Source.EventSpecification_init, List.tail_cons, List.mem_cons, List.not_mem_nil, or_false] at hq
      rcases hq with rfl | rfl | rfl | rfl | rfl | rfl | rfl | rfl | rfl | rfl | rfl | rfl | rfl | rfl <;> simp [specAttrs]
  rw [(spec_kw W n _).1 hf]
  rfl

/-! ### one call -/

theorem get_of_getEvent {s : Storage} {u : Uid} {e : Event} (h : s.getEvent u = .ok e) : Dict.get? s.events u = some e := by
  unfold Storage.getEvent at h
  cases hg : Dict.get? s.events u with
  | none => rw [hg] at h; cases h
  | some x => rw [hg] at h; injection h with h; rw [h]

/-- What the model says about a method of an event. -/
def changeOf : Op → Event → Event × List Note × Res Unit
  | .setStatus _ a st, e => e.setStatus a st
  | .setRole _ a r, e => ((e.setRole a r).1, [], (e.setRole a r).2)
  | .invite _ l, e => e.invite l
  | .alldayAdjust _, e => (e.alldayAdjust, [], .ok ())
  | .edit _ s, e => ((s.setOnObject e).1, [], (s.setOnObject e).2)
  | _, e => (e, [], .ok ())

section
variable [Source.Globals] [Weekdays]

/-- The calls that change an event. -/
def Op.Changing : Op → Prop
  | .setStatus .. | .setRole .. | .invite .. | .alldayAdjust .. | .edit .. => True
  | _ => False

theorem step_change (w : World) {op : Op} {u : Uid} (hu : Op.about op = some u) (hc : Op.Changing op) :
    w.step op = w.onEvent u (changeOf op) := by
  cases op <;> first | exact hc.elim | (injection hu with hu; subst hu; rfl)

theorem reports_map (L : Listing) {e : Event} : ∀ {ns : List Note}, (∀ n ∈ ns, Note.uid n = e.uid) →
    List.Forall₂ (Reports L) (ns.map (ofNote L e)) ns
  | [], _ => .nil
  | n :: ns, h => .cons ⟨e, rfl, (h n (by simp)).symm⟩ (reports_map L fun x hx => h x (by simp [hx]))

theorem setStatus_notes (e : Event) (a : AttId) (st : Option String) :
    ∀ n ∈ (e.setStatus a st).2.1, Note.uid n = (e.setStatus a st).1.uid := by
  rw [setStatus_uid]
  unfold Event.setStatus
  intro n hn
  by_cases h1 : st ∉ statuses
  · rw [if_pos h1] at hn
    cases hn
  · rw [if_neg h1] at hn
    by_cases h2 : e.getStatus a = st
    · simp only [if_pos h2] at hn
      cases hn
    · simp only [if_neg h2] at hn
      generalize e.setStatusRaw a st = z at hn
      obtain ⟨e', r⟩ := z
      cases r with
      | error f => cases hn
      | ok x =>
        simp only [List.mem_singleton] at hn
        rw [hn]
        rfl

theorem changes_iff (L : Listing) (hL : L.Faithful) (e : Event) (he : e.Parts) (hd : Lasting e.duration) (op : Op) (hc : Op.Changing op) :
    ∃ out, List.Forall₂ (Reports L) out (changeOf op e).2.1 ∧ ∀ ev' o fin, Changes L (ofEvent L e) op ev' o fin ↔
      ev' = ofEvent L (changeOf op e).1 ∧ o = out ∧ fin = endOf (changeOf op e).2.2 := by
  cases op with
  | setStatus u a st =>
    have h : Does (ofEvent L e) "setParticipationStatus" [ofAttendee L a, ofOption .str st]
        [ofEvent L (e.setStatus a st).1, ofAttendee L a, ofOption .str st]
        ((e.setStatus a st).2.1.map (ofNote L (e.setStatus a st).1)) (endOf (e.setStatus a st).2.2) .none :=
      answers_of 0 3 (fun W n _ => setStatus_prog W n L e ⟨he.state, he.role⟩ a st)
    refine ⟨_, reports_map L (setStatus_notes e a st), fun ev' o fin => ⟨fun hx => ?_, ?_⟩⟩
    · cases hx with
      | setStatus hx =>
        obtain ⟨h1, h2, h3, _⟩ := hx.unique h
        exact ⟨by injection h1, h2, h3⟩
    · rintro ⟨rfl, rfl, rfl⟩
      exact .setStatus h
  | setRole u a r =>
    have h : Does (ofEvent L e) "setParticipationRole" [ofAttendee L a, .str r]
        [ofEvent L (e.setRole a r).1, ofAttendee L a, .str r] [] (endOf (e.setRole a r).2) .none :=
      answers_of 0 2 (fun W n _ => setRole_prog W n L e a r)
    refine ⟨[], .nil, fun ev' o fin => ⟨fun hx => ?_, ?_⟩⟩
    · cases hx with
      | setRole hx =>
        obtain ⟨h1, h2, h3, _⟩ := hx.unique h
        exact ⟨by injection h1, h2, h3⟩
    · rintro ⟨rfl, rfl, rfl⟩
      exact .setRole h
  | invite u l =>
    obtain ⟨vs, f, h⟩ := does_invite L e he l
    refine ⟨vs, f, fun ev' o fin => ⟨fun hx => ?_, ?_⟩⟩
    · cases hx with
      | invite hx =>
        obtain ⟨h1, h2, h3, _⟩ := hx.unique h
        exact ⟨by injection h1, h2, h3⟩
    · rintro ⟨rfl, rfl, rfl⟩
      exact .invite h
  | alldayAdjust u =>
    have h : Does (ofEvent L e) "alldayAdjust" [] [ofEvent L e.alldayAdjust] [] Option.none .none :=
      answers_of 0 1 (fun W n _ => allday_fits W n L e hd)
    refine ⟨[], .nil, fun ev' o fin => ⟨fun hx => ?_, ?_⟩⟩
    · cases hx with
      | alldayAdjust hx =>
        obtain ⟨h1, h2, h3, _⟩ := hx.unique h
        exact ⟨by injection h1, h2, h3⟩
    · rintro ⟨rfl, rfl, rfl⟩
      exact .alldayAdjust h
  | edit u s =>
    have h : Does (ofSpec L s) "setOnObject" [ofEvent L e] [ofSpec L s, ofEvent L (s.setOnObject e).1] []
        (endOf (s.setOnObject e).2) .none :=
      answers_of 0 4 (fun W n _ => setOnObject_prog W n L hL s e)
    refine ⟨[], .nil, fun ev' o fin => ⟨fun hx => ?_, ?_⟩⟩
    · cases hx with
      | edit hx =>
        obtain ⟨h1, h2, h3, _⟩ := hx.unique h
        injection h1 with _ h1
        exact ⟨by injection h1, h2, h3⟩
    · rintro ⟨rfl, rfl, rfl⟩
      exact .edit h
  | _ => exact hc.elim

theorem changes_changing {L : Listing} {ev ev' : Val} {op : Op} {out : List Val} {fin : Option Stop} (h : Changes L ev op ev' out fin) :
    Op.Changing op := by
  cases h <;> trivial

theorem endOf_dropRes (x : World × Res Event) : endOf (dropRes x).2 = endOf x.2 := by
  obtain ⟨w, r⟩ := x
  cases r <;> rfl

theorem tells_create (L : Listing) (w : World) (now : DateTime) (u : Option Uid) (s : CalCore.Spec) :
    Tells L w (w.createEvent now u s).1 (telling L "EventCreatedEvent" (w.createEvent now u s).2) := by
  unfold World.createEvent
  generalize w.store.createEvent now u s = z
  obtain ⟨st, r⟩ := z
  cases r with
  | ok e => exact Tells.one (.created e.uid) e rfl rfl
  | error f => exact Tells.refl L _ _ rfl

theorem tells_delete (L : Listing) (w : World) (e : Event) :
    Tells L w (w.deleteEvent e.uid).1 (telling L "EventDeletedEvent" ((w.deleteEvent e.uid).2.map (fun _ => e))) := by
  unfold World.deleteEvent
  generalize w.store.deleteEvent e.uid = z
  obtain ⟨st, r⟩ := z
  cases r with
  | ok _ => exact Tells.one (.deleted e.uid) e rfl rfl
  | error f => exact Tells.refl L _ _ rfl

theorem getAttr_attendeeWith (L : Listing) (s : Storage) (a : AttId) {attrs : List (String × Val)}
    (h : .obj "Attendee" attrs = attendeeWith L s a) : getAttr "_storage_manager" attrs = .ok (ofManager L s) := by
  unfold attendeeWith at h
  injection h with _ h
  rw [h]
  exact getAttr_setAttr ..

/-- A call, as written, does what the model says, and nothing else. -/
theorem acts_iff (fqdn : String) (L : Listing) (hL : L.Faithful) (w : World) (hw : Sound w) (op : Op) (ho : Op.Ordinary op) :
    ∃ out, Tells L w (w.step op).1 out ∧ ∀ m' o fin, Acts fqdn L (ofManager L w.store) op m' o fin ↔
      m' = ofManager L (w.step op).1.store ∧ o = out ∧ fin = endOf (w.step op).2 := by
  have gone : ∀ {u : Uid} {x : Fault}, Op.about op = some u → w.store.getEvent u = .error x → w.step op = (w, .error x) →
      ∃ out, Tells L w (w.step op).1 out ∧ ∀ m' o fin, Acts fqdn L (ofManager L w.store) op m' o fin ↔
        m' = ofManager L (w.step op).1.store ∧ o = out ∧ fin = endOf (w.step op).2 := by
    intro u x hu hx hs
    have hg := answers_getEvent L w.store u
    rw [hx, toM_error] at hg
    rw [hs]
    refine ⟨[], Tells.refl L _ _ rfl, fun m' o fin => ⟨fun h => ?_, ?_⟩⟩
    · cases h with
      | create h => cases hu
      | attendeeCreate hm hp hd h hm' => cases hu
      | import_ hm hd hs h hm' => cases hu
      | missing hu' h =>
        rw [hu] at hu'
        injection hu' with hu'
        subst hu'
        have := Answers.unique h hg
        injection this with this
        exact ⟨rfl, rfl, by rw [this]; rfl⟩
      | delete hg' h =>
        injection hu with hu
        subst hu
        cases Answers.unique hg' hg
      | change hu' hg' h hs =>
        rw [hu] at hu'
        injection hu' with hu'
        subst hu'
        cases Answers.unique hg' hg
    · rintro ⟨rfl, rfl, rfl⟩
      exact .missing hu hg
  have found : ∀ {u : Uid}, Op.about op = some u → Op.Changing op →
      ∃ out, Tells L w (w.step op).1 out ∧ ∀ m' o fin, Acts fqdn L (ofManager L w.store) op m' o fin ↔
        m' = ofManager L (w.step op).1.store ∧ o = out ∧ fin = endOf (w.step op).2 := by
    intro u hu hc
    have hs := step_change w hu hc
    cases hx : w.store.getEvent u with
    | error x =>
      refine gone hu hx ?_
      rw [hs]
      unfold World.onEvent
      rw [hx]
    | ok e =>
      have hg := answers_getEvent L w.store u
      rw [hx, toM_ok] at hg
      have hk := get_of_getEvent hx
      obtain ⟨out, f, hi⟩ := changes_iff L hL e (hw.parts _ _ hk) (hw.lasting _ _ hk) op hc
      have hs' : w.step op = (⟨{ w.store with events := Dict.set w.store.events u (changeOf op e).1 },
          w.log ++ (changeOf op e).2.1⟩, (changeOf op e).2.2) := by
        rw [hs]
        unfold World.onEvent
        rw [hx]
      rw [hs']
      refine ⟨out, ⟨_, rfl, f⟩, fun m' o fin => ⟨fun h => ?_, ?_⟩⟩
      · cases h with
        | create h => cases hu
        | attendeeCreate hm hp hd h hm' => cases hu
        | import_ hm hd hs h hm' => cases hu
        | missing hu' h =>
          rw [hu] at hu'
          injection hu' with hu'
          subst hu'
          cases Answers.unique h hg
        | delete hg' h => exact hc.elim
        | change hu' hg' h hsh =>
          rw [hu] at hu'
          injection hu' with hu'
          subst hu'
          have := Answers.unique hg' hg
          injection this with this
          subst this
          obtain ⟨rfl, rfl, rfl⟩ := (hi _ _ _).1 h
          rw [share_stored] at hsh
          injection hsh with hsh
          exact ⟨hsh.symm, rfl, rfl⟩
      · rintro ⟨rfl, rfl, rfl⟩
        exact .change hu hg ((hi _ _ _).2 ⟨rfl, rfl, rfl⟩) (share_stored ..)
  cases op with
  | create now u s =>
    have h := does_create L w now ho.1 fqdn u s ho.2
    refine ⟨_, tells_create L w now u s, fun m' o fin => ⟨fun hx => ?_, ?_⟩⟩
    · cases hx with
      | create hx =>
        obtain ⟨h1, h2, h3, _⟩ := @Does.unique (Source.world now fqdn) _ _ _ _ _ _ _ _ _ _ _ hx h
        exact ⟨by injection h1, h2, h3.trans (endOf_dropRes _).symm⟩
      | missing hu => cases hu
      | change hu => cases hu
    · rintro ⟨rfl, rfl, rfl⟩
      have h' := h
      rw [← endOf_dropRes] at h'
      exact .create h'
  | attendeeCreate now a s =>
    refine ⟨_, tells_create L w now Option.none { s with organizer := some a }, fun m' o fin => ⟨fun hx => ?_, ?_⟩⟩
    · cases hx with
      | @attendeeCreate _ _ _ _ _ _ _ _ person attrs d hm hp hd hx hm' =>
        obtain ⟨kw, v, h⟩ := does_attendeeCreate ⟨L.cats, person⟩ w now ho.1 fqdn a s ho.2 hm hp d hd
        obtain ⟨h1, h2, h3, _⟩ := @Does.unique (Source.world now fqdn) _ _ _ _ _ _ _ _ _ _ _ hx h
        injection h1 with h1 _
        rw [getAttr_attendeeWith _ _ _ h1] at hm'
        injection hm' with hm'
        exact ⟨hm'.symm, h2, h3.trans (endOf_dropRes _).symm⟩
      | missing hu => cases hu
      | change hu => cases hu
    · rintro ⟨rfl, rfl, rfl⟩
      obtain ⟨kw, v, h⟩ := does_attendeeCreate ⟨L.cats, fun _ => [("_storage_manager", ofManager L w.store)]⟩ w now ho.1 fqdn a s ho.2
        rfl rfl _ (@makes_all (Source.world now fqdn) _ s)
      have h' := h
      rw [← endOf_dropRes] at h'
      exact .attendeeCreate (person := fun _ => [("_storage_manager", ofManager L w.store)]) rfl rfl
        (@makes_all (Source.world now fqdn) _ s) h'
        (getAttr_attendeeWith ⟨L.cats, fun _ => [("_storage_manager", ofManager L w.store)]⟩ (w.attendeeCreateEvent now a s).1.store a rfl)
  | delete u =>
    cases hx : w.store.getEvent u with
    | error x =>
      refine gone rfl hx ?_
      unfold World.step
      simp only [hx]
    | ok e =>
      have hg := answers_getEvent L w.store u
      rw [hx, toM_ok] at hg
      have h := does_delete L w hw.wf e
      have hs : w.step (.delete u) = w.deleteEvent e.uid := by
        unfold World.step
        simp only [hx]
      rw [hs]
      refine ⟨_, tells_delete L w e, fun m' o fin => ⟨fun hx => ?_, ?_⟩⟩
      · cases hx with
        | delete hg' hx =>
          have := Answers.unique hg' hg
          injection this with this
          subst this
          obtain ⟨h1, h2, h3, _⟩ := hx.unique h
          exact ⟨by injection h1, h2, h3⟩
        | missing hu hx =>
          injection hu with hu
          subst hu
          cases Answers.unique hx hg
        | change hu hg' hx => exact (changes_changing hx).elim
      · rintro ⟨rfl, rfl, rfl⟩
        exact .delete hg h
  | import_ => exact ho.elim
  | setStatus u a st => exact found rfl trivial
  | setRole u a r => exact found rfl trivial
  | invite u l => exact found rfl trivial
  | alldayAdjust u => exact found rfl trivial
  | edit u s => exact found rfl trivial

end

/-! ### what the calls rely on stays -/

theorem allday_lasting (e : Event) (h : Lasting e.duration) : Lasting e.alldayAdjust.duration := by
  rw [alldayAdjust_days]
  intro x hx
  injection hx with hx
  subst hx
  cases hd : e.duration with
  | none => simp [DAY]
  | some d =>
    have := h d hd
    simp only [Option.map_some, Option.getD_some]
    unfold daysTaken
    split
    · simp [DAY]
    · unfold DAY at *
      omega

theorem setStatus_duration (e : Event) (a : AttId) (st : Option String) : (e.setStatus a st).1.duration = e.duration := by
  have hr : (e.setStatusRaw a st).1.duration = e.duration := by
    unfold Event.setStatusRaw
    cases st with
    | some s => rfl
    | none =>
      simp only []
      split
      · split <;> rfl
      · rfl
  unfold Event.setStatus
  by_cases h1 : st ∉ statuses
  · rw [if_pos h1]
  · rw [if_neg h1]
    by_cases h2 : e.getStatus a = st
    · simp only [if_pos h2]
    · simp only [if_neg h2]
      generalize e.setStatusRaw a st = z at hr ⊢
      obtain ⟨e', r⟩ := z
      cases r <;> exact hr

theorem setRole_duration (e : Event) (a : AttId) (r : String) : (e.setRole a r).1.duration = e.duration := by
  unfold Event.setRole
  split <;> rfl

theorem invite_duration (l : List AttId) : ∀ e : Event, (e.invite l).1.duration = e.duration := by
  induction l with
  | nil => intro e; rfl
  | cons a l ih =>
    intro e
    rw [invite_cons, ih]
    by_cases h : e.getStatus a = Option.none
    · rw [inviteOne_none e a h]
    · rw [inviteOne_some e a h]

theorem change_lasting (op : Op) (ho : Op.Ordinary op) (e : Event) (h : Lasting e.duration) : Lasting (changeOf op e).1.duration := by
  cases op with
  | setStatus u a st => exact (setStatus_duration e a st).symm ▸ h
  | setRole u a r => exact (setRole_duration e a r).symm ▸ h
  | invite u l => exact (invite_duration l e).symm ▸ h
  | alldayAdjust u => exact allday_lasting e h
  | edit u s => exact (setOn_duration s e).symm ▸ ho
  | _ => exact h

theorem new_lasting {u : Uid} {s : CalCore.Spec} {e : Event} (h : newEvent u s = .ok e) (hs : Lasting s.duration) : Lasting e.duration := by
  have h0 : Lasting (s.setOnObject (blankEvent u)).1.duration := by rw [setOn_duration]; exact hs
  unfold newEvent at h
  generalize s.setOnObject (blankEvent u) = z at h h0
  obtain ⟨e', r⟩ := z
  cases r with
  | error f => cases h
  | ok _ =>
    simp only [] at h h0
    injection h with h
    rw [← h]
    split
    · exact allday_lasting e' h0
    · exact h0

theorem create_lasting (w : World) (now : DateTime) (u : Option Uid) (s : CalCore.Spec) (hs : Lasting s.duration)
    (h : ∀ k e, Dict.get? w.store.events k = some e → Lasting e.duration) :
    ∀ k e, Dict.get? (w.createEvent now u s).1.store.events k = some e → Lasting e.duration := by
  unfold World.createEvent Storage.createEvent
  cases hn : newEvent (u.getD (w.store.autoId now)) s with
  | error f => simpa only [hn] using h
  | ok e =>
    simp only [hn]
    intro k e' hk
    rw [Dict.get?_set] at hk
    split at hk
    · injection hk with hk
      exact hk ▸ new_lasting hn hs
    · exact h k e' hk

theorem Sound.step {w : World} (hw : Sound w) {op : Op} (ho : Op.Ordinary op) : Sound (w.step op).1 := by
  have hm := w.step_many op
  refine ⟨hm.wf hw.wf, hm.events (P := Event.Parts) (fun _ _ _ h => newEvent_parts h) (fun _ _ hs h => hs.parts h) hw.parts, ?_⟩
  have change : ∀ {u : Uid}, Op.about op = some u → Op.Changing op →
      ∀ k e, Dict.get? (w.step op).1.store.events k = some e → Lasting e.duration := by
    intro u hu hc
    rw [step_change w hu hc]
    unfold World.onEvent
    cases hx : w.store.getEvent u with
    | error f => exact hw.lasting
    | ok e =>
      intro k e' hk
      simp only [Dict.get?_set] at hk
      split at hk
      · injection hk with hk
        exact hk ▸ change_lasting op ho e (hw.lasting _ _ (get_of_getEvent hx))
      · exact hw.lasting k e' hk
  cases op with
  | create now u s => exact create_lasting w now u s ho.2 hw.lasting
  | attendeeCreate now a s => exact create_lasting w now Option.none { s with organizer := some a } ho.2 hw.lasting
  | delete u =>
    cases hx : w.store.getEvent u with
    | error f =>
      simp only [World.step, hx]
      exact hw.lasting
    | ok e =>
      simp only [World.step, hx]
      unfold World.deleteEvent Storage.deleteEvent
      cases hh : Dict.has w.store.events e.uid with
      | false => exact hw.lasting
      | true =>
        intro k e' hk
        simp only [↓reduceIte, Dict.get?_del] at hk
        split at hk
        · cases hk
        · exact hw.lasting k e' hk
  | import_ => exact ho.elim
  | setStatus u a st => exact change rfl trivial
  | setRole u a r => exact change rfl trivial
  | invite u l => exact change rfl trivial
  | alldayAdjust u => exact change rfl trivial
  | edit u s => exact change rfl trivial

/-! ### imports -/

theorem ofCalendar_manager {L : Listing} {s s' : Storage} (src : CalCore.Source) (c : Calendar) :
    ofManager L s = ofManager L s' ↔ ofCalendar L s src c = ofCalendar L s' src c := by
  unfold ofCalendar ofSource
  constructor
  · intro h
    rw [h]
  · intro h
    injection h with _ h
    injection h with _ h
    injection h with h _
    injection h

theorem import_lasting (w : World) (tz : LocalTz) (c : Calendar) (src : CalCore.Source) (vs : List VEvent) (b e : Option DateTime)
    (cr : Option Criteria) (sync : Bool) (hv : ∀ v ∈ vs, ∀ s, importSpec tz c src v = .ok s → Lasting s.duration)
    (h : ∀ k e, Dict.get? w.store.events k = some e → Lasting e.duration) :
    ∀ k ev, Dict.get? (w.step (.import_ tz c src vs b e cr sync)).1.store.events k = some ev → Lasting ev.duration := by
  have hm := w.import_importMany (Q := fun s => Lasting s.duration) (fun _ => .ok (some vs)) tz c src [] b e cr sync
    (fun vs' hvs v hv' s hs => by
      injection hvs with hvs
      injection hvs with hvs
      exact hv v (hvs ▸ hv') s hs)
  refine hm.preserves (P := fun w => ∀ k ev, Dict.get? w.store.events k = some ev → Lasting ev.duration) ?_ h
  intro w w' hs hw k ev hk
  cases hs with
  | create uid spec e hq he =>
    rw [Dict.get?_set] at hk
    split at hk
    · injection hk with hk; subst hk; exact new_lasting he hq
    · exact hw k ev hk
  | update uid e spec log hq he =>
    rw [Dict.get?_set] at hk
    split at hk
    · injection hk with hk
      subst hk
      rw [setOn_duration]
      exact hq
    · exact hw k ev hk
  | delete uid _ =>
    rw [Dict.get?_del] at hk
    split at hk
    · cases hk
    · exact hw k ev hk

theorem Sound.usable {L : Listing} {w : World} (hw : Sound w) {op : Op} (ho : Op.Usable L op) : Sound (w.step op).1 := by
  cases op with
  | import_ tz c src vs b e cr sync =>
    have hm := w.step_many (.import_ tz c src vs b e cr sync)
    exact ⟨hm.wf hw.wf, hm.events (P := Event.Parts) (fun _ _ _ h => newEvent_parts h) (fun _ _ hs h => hs.parts h) hw.parts,
      import_lasting w tz c src vs b e cr sync ho.2 hw.lasting⟩
  | _ => exact hw.step ho

/-- A call, imports included, does what the model says. -/
theorem acts_usable [Source.Globals] [Weekdays] (fqdn : String) (L : Listing) (hL : L.Faithful) (w : World) (hw : Sound w) (op : Op)
    (ho : Op.Usable L op) :
    (∃ o, Acts fqdn L (ofManager L w.store) op (ofManager L (w.step op).1.store) o (endOf (w.step op).2)) ∧
    ∀ m' o fin, Acts fqdn L (ofManager L w.store) op m' o fin →
      m' = ofManager L (w.step op).1.store ∧ Tells L w (w.step op).1 o ∧ fin = endOf (w.step op).2 := by
  have plain : Op.Ordinary op → _ := fun h => (by
    obtain ⟨out, t, h⟩ := acts_iff fqdn L hL w hw op h
    refine ⟨⟨out, (h _ _ _).2 ⟨rfl, rfl, rfl⟩⟩, fun m' o fin hx => ?_⟩
    obtain ⟨h1, rfl, h3⟩ := (h _ _ _).1 hx
    exact ⟨h1, t, h3⟩ :
    (∃ o, Acts fqdn L (ofManager L w.store) op (ofManager L (w.step op).1.store) o (endOf (w.step op).2)) ∧
    ∀ m' o fin, Acts fqdn L (ofManager L w.store) op m' o fin →
      m' = ofManager L (w.step op).1.store ∧ Tells L w (w.step op).1 o ∧ fin = endOf (w.step op).2)
  cases op with
  | import_ tz c src vs b e cr sync =>
    have hw' : ∀ (text : String) (ds : List (Dict String Val)) (flag : Val), flag.truthy = sync →
        List.Forall₂ (Component L tz c src) vs ds → ∃ out,
        Imports (.components ds) L src c text b e cr flag w.store (w.step (.import_ tz c src vs b e cr sync)).1.store out
          (endOf (w.step (.import_ tz c src vs b e cr sync)).2) ∧ Tells L w (w.step (.import_ tz c src vs b e cr sync)).1 out := by
      intro text ds flag hf hd
      have := import_written L hL w hw.wf src c tz text b e cr flag (fun _ => .ok (some vs)) (.components ds) (.components vs ds hd)
      rw [hf] at this
      exact this
    constructor
    · obtain ⟨ds, hd⟩ := ho.1
      obtain ⟨out, h, _⟩ := hw' "" ds (.bool sync) (by cases sync <;> rfl) hd
      exact ⟨out, .import_ rfl hd (by cases sync <;> rfl) h rfl⟩
    · intro m' o fin hx
      cases hx with
      | missing hu => cases hu
      | change hu => cases hu
      | @import_ _ _ _ _ _ _ _ _ text ds flag _ st st' _ _ hm hd hf hx hm' =>
        obtain ⟨out, h, ht⟩ := hw' text ds flag hf hd
        unfold Imports at hx h
        rw [(ofCalendar_manager src c).1 hm] at hx
        obtain ⟨h1, h2, h3, _⟩ := @Does.unique (Source.reading (parserFor (String.ofList (repairText text.toList)) (.components ds)))
          _ _ _ _ _ _ _ _ _ _ _ hx h
        injection h1 with h1 _
        subst h2
        exact ⟨hm'.symm.trans ((ofCalendar_manager src c).2 h1), ht, h3⟩
  | _ => exact plain ho

/-- All calls of a sequence, imports included. -/
theorem runs_usable [Source.Globals] [Weekdays] (fqdn : String) (L : Listing) (hL : L.Faithful) (ops : List Op)
    (ho : ∀ op ∈ ops, Op.Usable L op) :
    ∀ w : World, Sound w → (∃ o, Runs fqdn L (ofManager L w.store) ops (ofManager L (w.run ops).store) o) ∧
      ∀ m' o, Runs fqdn L (ofManager L w.store) ops m' o → m' = ofManager L (w.run ops).store ∧ Tells L w (w.run ops) o := by
  induction ops with
  | nil =>
    intro w _
    refine ⟨⟨[], .nil⟩, fun m' o h => ?_⟩
    cases h
    exact ⟨rfl, Tells.refl L _ _ rfl⟩
  | cons op ops ih =>
    intro w hw
    obtain ⟨⟨o1, e1⟩, h1⟩ := acts_usable fqdn L hL w hw op (ho op (by simp))
    obtain ⟨⟨o2, e2⟩, h2⟩ := ih (fun x hx => ho x (by simp [hx])) (w.step op).1 (hw.usable (ho op (by simp)))
    refine ⟨⟨o1 ++ o2, .cons e1 e2⟩, fun m' o h => ?_⟩
    cases h with
    | cons ha hr =>
      obtain ⟨rfl, t1, _⟩ := h1 _ _ _ ha
      obtain ⟨rfl, t2⟩ := h2 _ _ hr
      exact ⟨rfl, t1.trans t2⟩

/-- All calls of a sequence. -/
theorem runs_iff [Source.Globals] [Weekdays] (fqdn : String) (L : Listing) (hL : L.Faithful) (ops : List Op) (ho : ∀ op ∈ ops, Op.Ordinary op) :
    ∀ w : World, Sound w → ∃ out, Tells L w (w.run ops) out ∧ ∀ m' o, Runs fqdn L (ofManager L w.store) ops m' o ↔
      m' = ofManager L (w.run ops).store ∧ o = out := by
  induction ops with
  | nil =>
    intro w _
    refine ⟨[], Tells.refl L _ _ rfl, fun m' o => ⟨fun h => ?_, ?_⟩⟩
    · cases h
      exact ⟨rfl, rfl⟩
    · rintro ⟨rfl, rfl⟩
      exact .nil
  | cons op ops ih =>
    intro w hw
    obtain ⟨o1, t1, h1⟩ := acts_iff fqdn L hL w hw op (ho op (by simp))
    obtain ⟨o2, t2, h2⟩ := ih (fun x hx => ho x (by simp [hx])) (w.step op).1 (hw.step (ho op (by simp)))
    refine ⟨o1 ++ o2, t1.trans t2, fun m' o => ⟨fun h => ?_, ?_⟩⟩
    · cases h with
      | cons ha hr =>
        obtain ⟨rfl, rfl, _⟩ := (h1 _ _ _).1 ha
        obtain ⟨rfl, rfl⟩ := (h2 _ _).1 hr
        exact ⟨rfl, rfl⟩
    · rintro ⟨rfl, rfl⟩
      exact .cons ((h1 _ _ _).2 ⟨rfl, rfl, rfl⟩) ((h2 _ _).2 ⟨rfl, rfl⟩)

end CalCore.Lang
