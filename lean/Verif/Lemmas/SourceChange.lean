import Verif.Lemmas.SourceCreate
/- Changing calendars and attendee sources, as written. -/
namespace CalCore.Lang
open CalCore.Spec
set_option linter.unusedSectionVars false
variable [Source.Globals]

theorem calendar_set (L : Listing) (s : Storage) (src : CalCore.Source) (c : Calendar) (a : AttId) :
    setItemOf "_attendees" .none (.ok (.str a)) (ofCalendar L s src c) = .ok (ofCalendar L s src (c.add a)) := by
  have h := setItem_any (fun _ : Unit => Val.none) c a ()
  unfold ofCalendar setItemOf
  simp only [getAttr, ↓reduceIte, M_bind_ok, h, setAttr]
  rfl

theorem calendar_del (L : Listing) (s : Storage) (src : CalCore.Source) (c : Calendar) (hc : (Dict.keys c).Nodup) (a : AttId) :
    delItemOf "_attendees" (.ok (.str a)) (ofCalendar L s src c)
    = if Dict.has c a then .ok (ofCalendar L s src (Dict.del c a)) else .error (.py .KeyError) := by
  have h := delKey_any (fun _ : Unit => Val.none) c hc a
  unfold ofCalendar delItemOf
  simp only [getAttr, ↓reduceIte, M_bind_ok, h]
  by_cases hh : Dict.has c a = true
  · simp only [hh, ↓reduceIte, M_bind_ok, setAttr]
  · simp only [hh]
    rfl

theorem method_addAttendee : Source.prog.method 4 "Calendar" "addAttendee" = some "CalendarBase.addAttendee" := rfl
theorem method_removeAttendee : Source.prog.method 4 "Calendar" "removeAttendee" = some "CalendarBase.removeAttendee" := rfl
theorem method_attendee_init : Source.prog.method 4 "Attendee" "__init__" = some "Attendee.__init__" := rfl
theorem method_createIndividual :
    Source.prog.method 4 "SimpleAttendeeSource" "createIndividual" = some "SimpleAttendeeSource.createIndividual" := rfl
theorem method_createRoom : Source.prog.method 4 "SimpleAttendeeSource" "createRoom" = some "SimpleAttendeeSource.createRoom" := rfl

theorem addAttendee_prog (W n : Nat) (L : Listing) (s : Storage) (src : CalCore.Source) (c : Calendar) (a : AttId) :
    Source.prog.call W (n + 2) "CalendarBase.addAttendee" [ofCalendar L s src c, ofAttendee L a] []
    = .ok (procVal [ofCalendar L s src (c.add a), ofAttendee L a] [] Option.none .none) := by
  have h := getAttendeeId_prog W n L a
  rw [call_eq (d := Source.CalendarBase_addAttendee) rfl]
  lang [Source.CalendarBase_addAttendee, ↓assign_attrItem, ↓eval_method, on_attendee, callClass_some method_getAttendeeId, h, calendar_set]

theorem removeAttendee_prog (W n : Nat) (L : Listing) (s : Storage) (src : CalCore.Source) (c : Calendar) (hc : (Dict.keys c).Nodup)
    (a : AttId) :
    Source.prog.call W (n + 2) "CalendarBase.removeAttendee" [ofCalendar L s src c, ofAttendee L a] []
    = .ok (procVal [ofCalendar L s src (c.remove a).1, ofAttendee L a] [] (endOf (c.remove a).2) .none) := by
  have h := getAttendeeId_prog W n L a
  have h2 := calendar_del L s src c hc a
  rw [call_eq (d := Source.CalendarBase_removeAttendee) rfl]
  unfold Calendar.remove
  cases hh : Dict.has c a with
  | true =>
    rw [hh] at h2
    lang [Source.CalendarBase_removeAttendee, ↓delete_eq, ↓eval_method, on_attendee, callClass_some method_getAttendeeId, h, h2]
    rfl
  | false =>
    rw [hh] at h2
    lang [Source.CalendarBase_removeAttendee, ↓delete_eq, ↓eval_method, on_attendee, callClass_some method_getAttendeeId, h, h2]
    rfl

/-- The attributes that `Attendee.__init__` sets, besides the id. -/
def personAttrs (name type : String) (manager : Val) : List (String × Val) :=
  [("_name", .str name), ("_attendee_type", .str type), ("_storage_manager", manager)]

theorem attendeeBase_init (W n : Nat) (c : String) (a b t : Val) :
    Source.prog.call W (n + 1) "AttendeeBase.__init__" [.obj c [], a, b, t] []
    = .ok (.obj c [("_attendee_id", a), ("_name", b), ("_attendee_type", t)]) := by
  rw [call_eq (d := Source.AttendeeBase_init) rfl]
  lang [Source.AttendeeBase_init]

theorem attendee_init (W n : Nat) (m a b t : Val) :
    Source.prog.call W (n + 2) "Attendee.__init__" [.obj "Attendee" [], m, a, b, t] []
    = .ok (.obj "Attendee" [("_attendee_id", a), ("_name", b), ("_attendee_type", t), ("_storage_manager", m)]) := by
  have h := attendeeBase_init W n "Attendee" a b t
  rw [call_eq (d := Source.Attendee_init) rfl]
  lang [Source.Attendee_init, ctx_call, h]

theorem attendee_init_prog (W n : Nat) (L : Listing) (s : Storage) (a : AttId) (name type : String)
    (hp : L.person a = personAttrs name type (ofManager L s)) :
    Source.prog.call W (n + 2) "Attendee.__init__" [.obj "Attendee" [], ofManager L s, .str a, .str name, .str type] []
    = .ok (ofAttendee L a) := by
  rw [attendee_init, ofAttendee, hp]
  rfl

theorem source_set (L : Listing) (s : Storage) (src : CalCore.Source) (a : AttId) (x : Attendee) :
    setItemOf "_attendees" (ofAttendee L a) (.ok (.str a)) (ofSource L s src) = .ok (ofSource L s (Dict.set src a x)) := by
  have h : ∀ src : CalCore.Source, setItem (.str a) (ofAttendee L a) (src.map (fun p => (Val.str p.1, ofAttendee L p.1)))
      = .ok ((Dict.set src a x).map (fun p => (Val.str p.1, ofAttendee L p.1))) := by
    intro src
    induction src with
    | nil => rfl
    | cons p d ih =>
      obtain ⟨k, v⟩ := p
      rw [List.map_cons, setItem, Dict.set]
      by_cases h : k = a
      · subst h
        simp [eq_str]
      · simp only [eq_str, M_bind_ok, h, decide_false, Bool.false_eq_true, ↓reduceIte, ih, List.map_cons]
  unfold ofSource setItemOf
  simp only [getAttr, String.reduceEq, ↓reduceIte, M_bind_ok, h, setAttr]

theorem source_attr_manager (L : Listing) (s : Storage) (src : CalCore.Source) :
    attrVal "_storage_manager" (ofSource L s src) = .ok (ofManager L s) := rfl

theorem createIndividual_prog (W n : Nat) (L : Listing) (s : Storage) (src : CalCore.Source) (a : AttId) (name : String)
    (hp : L.person a = personAttrs name "INDIVIDUAL" (ofManager L s)) :
    Source.prog.call W (n + 3) "SimpleAttendeeSource.createIndividual" [ofSource L s src, .str a, .str name] []
    = .ok (procVal [ofSource L s (src.createIndividual a name), .str a, .str name] [] Option.none (ofAttendee L a)) := by
  have h := attendee_init_prog W n L s a name "INDIVIDUAL" hp
  have h2 := source_set L s src a ⟨name, "INDIVIDUAL"⟩
  rw [call_eq (d := Source.SimpleAttendeeSource_createIndividual) rfl]
  lang [Source.SimpleAttendeeSource_createIndividual, ↓eval_attr, source_attr_manager, ctx_new method_attendee_init, h, ↓assign_attrItem, h2]
  rfl

theorem createRoom_prog (W n : Nat) (L : Listing) (s : Storage) (src : CalCore.Source) (a : AttId) (name : String)
    (hp : L.person a = personAttrs name "ROOM" (ofManager L s)) :
    Source.prog.call W (n + 3) "SimpleAttendeeSource.createRoom" [ofSource L s src, .str a, .str name] []
    = .ok (procVal [ofSource L s (src.createRoom a name), .str a, .str name] [] Option.none (ofAttendee L a)) := by
  have h := attendee_init_prog W n L s a name "ROOM" hp
  have h2 := source_set L s src a ⟨name, "ROOM"⟩
  rw [call_eq (d := Source.SimpleAttendeeSource_createRoom) rfl]
  lang [Source.SimpleAttendeeSource_createRoom, ↓eval_attr, source_attr_manager, ctx_new method_attendee_init, h, ↓assign_attrItem, h2]
  rfl

end CalCore.Lang
