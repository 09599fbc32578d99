import Verif.Props.WrittenSmall
import Verif.Props.Source
/- Properties C143 and C144: construction of stores and calendars, what depends on the clock, and vocabularies and `Period`, as they
are written. -/
namespace CalCore
open Spec Lang

/-! ### construction -/

/-- C143: a storage made with a name for the host has that host, the given id and no events; without one, or with an empty one, it
has the name of the machine. -/
theorem C143_storage (L : Listing) (now : Int) (fqdn id host : String) :
    (host ≠ "" → Makes "MemoryStorage" [.str id, .str host] (.ok (ofStorage L ⟨id, host, []⟩))) ∧
    @Makes (Source.world now fqdn) "MemoryStorage" [.str id, .none] (.ok (ofStorage L ⟨id, fqdn, []⟩)) ∧
    @Makes (Source.world now fqdn) "MemoryStorage" [.str id, .str ""] (.ok (ofStorage L ⟨id, fqdn, []⟩)) := by
  let _ : Source.Globals := Source.world now fqdn
  exact ⟨fun h => @makes_of ⟨Source.globals⟩ _ _ _ 0 2 (fun W n _ => @storage_new ⟨Source.globals⟩ W n id host h),
    makes_of 0 2 (fun W n _ => storage_here W n now fqdn id .none (.inl rfl)),
    makes_of 0 2 (fun W n _ => storage_here W n now fqdn id (.str "") (.inr rfl))⟩

/-- C143: a manager with a storage set, a source of attendees made with the manager and a calendar made with both are the empty ones
that the other properties are about. -/
theorem C143_made (L : Listing) (s : Storage) (src : CalCore.Source) :
    (∃ m, Makes "StorageManager" [] (.ok m) ∧ Does m "setStorage" [ofStorage L s] [ofManager L s, ofStorage L s] [] none .none) ∧
    Makes "SimpleAttendeeSource" [ofManager L s] (.ok (ofSource L s [])) ∧
    Makes "Calendar" [ofManager L s, ofSource L s src] (.ok (ofCalendar L s src [])) :=
  ⟨⟨_, makes_of 0 1 (fun W n _ => manager_new W n), answers_of 0 1 (fun W n _ => setStorage_prog W n _ _)⟩,
    makes_of 0 1 (fun W n _ => source_new W n _), makes_of 0 3 (fun W n _ => calendar_new W n _ _)⟩

/-- C143, concrete: on a machine named `box`. -/
example : @Makes (Source.world 0 "box") "MemoryStorage" [.str "st", .none] (.ok (ofStorage Sample.listing ⟨"st", "box", []⟩)) :=
  (C143_storage Sample.listing 0 "box" "st" "").2.1

/-- C143: setting another storage replaces the first. -/
theorem C143_replace (L : Listing) (s s' : Storage) :
    Does (ofManager L s) "setStorage" [ofStorage L s'] [ofManager L s', ofStorage L s'] [] none .none ∧
    Answers (ofStorage L s) "getStorageId" [] (.ok (.str s.id)) :=
  ⟨answers_of 0 1 (fun W n _ => setStorage_prog W n _ _), answers_of 0 1 (fun W n _ => storageId_prog W n L s)⟩

/-- C143: an attendee source knows no current user, and asking it for the types of attendees raises TypeError, whoever is in it. -/
theorem C143_source (L : Listing) (s : Storage) (src : CalCore.Source) :
    Answers (ofSource L s src) "getCurrentUserAttendee" [] (.ok .none) ∧
    Answers (ofSource L s src) "getCurrentUserAttendeeId" [] (.ok .none) ∧
    Answers (ofSource L s src) "getAttendeeTypes" [] (.error (.py .TypeError)) := by
  have m1 : Source.prog.method 4 "SimpleAttendeeSource" "getCurrentUserAttendee" = some "SimpleAttendeeSource.getCurrentUserAttendee" := rfl
  have m2 : Source.prog.method 4 "SimpleAttendeeSource" "getCurrentUserAttendeeId"
      = some "SimpleAttendeeSource.getCurrentUserAttendeeId" := rfl
  have m3 : Source.prog.method 4 "SimpleAttendeeSource" "getAttendeeTypes" = some "SimpleAttendeeSource.getAttendeeTypes" := rfl
  refine ⟨answers_of 0 1 (fun W n _ => ?_), answers_of 0 1 (fun W n _ => ?_), answers_of 0 1 (fun W n _ => ?_)⟩
  · rw [ofSource, invoke_eq m1, (currentUser_prog W n _).1]
  · rw [ofSource, invoke_eq m2, (currentUser_prog W n _).2]
  · rw [ofSource, invoke_eq m3, types_prog]

/-! ### ids -/

theorem read_parts {a b c p q r : List Char} {y m d hh mm ss : Nat} {D : Int} (l1 : a.length = 4) (l2 : b.length = 2) (l3 : c.length = 2)
    (l4 : p.length = 2) (l5 : q.length = 2) (l6 : r.length = 2) (r1 : readNat a = some y) (r2 : readNat b = some m)
    (r3 : readNat c = some d) (r4 : readNat p = some hh) (r5 : readNat q = some mm) (r6 : readNat r = some ss)
    (ha : ('T' : Char) ∉ a ++ b ++ c) (hb : ('T' : Char) ∉ p ++ q ++ r) (hD : dateOf y m d = some D) (h5 : hh < 24) (h6 : mm < 60)
    (h7 : ss < 60) :
    readDateTime ((a ++ b ++ c) ++ 'T' :: (p ++ q ++ r)) = some (D * 86400000000 + (((hh * 60 + mm) * 60 + ss : Nat) : Int) * 1000000) := by
  have t1 : (p ++ q ++ r).take 2 = p := by rw [List.append_assoc, ← l4, List.take_left]
  have t2 : ((p ++ q ++ r).drop 2).take 2 = q := by
    rw [List.append_assoc, ← l4, List.drop_left, l4, ← l5, List.take_left]
  have t3 : (p ++ q ++ r).drop 4 = r := by
    rw [show 4 = (p ++ q).length by rw [List.length_append, l4, l5], List.drop_left]
  have t4 : (a ++ b ++ c).take 4 = a := by rw [List.append_assoc, ← l1, List.take_left]
  have t5 : ((a ++ b ++ c).drop 4).take 2 = b := by
    rw [List.append_assoc, ← l1, List.drop_left, ← l2, List.take_left]
  have t6 : (a ++ b ++ c).drop 6 = c := by
    rw [show 6 = (a ++ b).length by rw [List.length_append, l1, l2], List.drop_left]
  have hd : readDate (a ++ b ++ c) = some D := by
    unfold readDate
    rw [if_pos (by simp only [List.length_append]; omega), t4, t5, t6, r1, r2, r3]
    simp only [Option.bind_some]
    exact hD
  unfold readDateTime
  rw [splitOn_two ha hb]
  simp only []
  rw [if_pos (by simp only [List.length_append]; omega), hd, t1, t2, t3, r4, r5, r6]
  simp only [Option.bind_some]
  rw [if_pos ⟨h5, h6, h7⟩]

theorem noT_digits (a b c k l m : Nat) : ('T' : Char) ∉ digits a k ++ digits b l ++ digits c m := fun h => by
  simp only [List.mem_append] at h
  rcases h with (h | h) | h <;> exact absurd (digits_chars _ _ h) (by decide)

theorem cut_seconds (D t : Int) (hh mm ss us : Nat) (h8 : us < 1000000)
    (h9 : t = combine D ((((hh * 60 + mm) * 60 + ss : Nat) : Int) * 1000000 + us)) :
    D * 86400000000 + (((hh * 60 + mm) * 60 + ss : Nat) : Int) * 1000000 = t / 1000000 * 1000000 := by
  unfold combine DAY at h9
  omega

theorem readDateTime_iso8601 (t : Int) (h : dtInRange t = true) :
    readDateTime (iso8601 t).toList = some (t / 1000000 * 1000000) := by
  obtain ⟨_, y, m, d, hh, mm, ss, h1, h2, h3, h4, h5, h6, h7, us, h8, h9⟩ := C61_iso8601 t h
  rw [mkDate_eq_ok] at h4
  obtain ⟨v1, v2, v3, v4⟩ := validYmd_date (dtDate t)
  have v5 := daysInMonth_pos (dyear (dtDate t)) (dmonth (dtDate t))
  obtain ⟨k1, k2, k3, k4⟩ := h4
  have e : digits 4 y ++ digits 2 m ++ digits 2 d ++ ['T'] ++ digits 2 hh ++ digits 2 mm ++ digits 2 ss
      = (digits 4 y ++ digits 2 m ++ digits 2 d) ++ 'T' :: (digits 2 hh ++ digits 2 mm ++ digits 2 ss) := by
    simp only [List.append_assoc, List.cons_append, List.nil_append]
  rw [h1, e, read_parts (digits_length _ _) (digits_length _ _) (digits_length _ _) (digits_length _ _) (digits_length _ _)
    (digits_length _ _) (readNat_digits (by omega) (by omega)) (readNat_digits (by omega) (by omega))
    (readNat_digits (by omega) (by omega)) (readNat_digits (by omega) (by omega)) (readNat_digits (by omega) (by omega))
    (readNat_digits (by omega) (by omega)) (noT_digits _ _ _ _ _ _) (noT_digits _ _ _ _ _ _)
    ((dateOf_eq_some _ _ _ _).2 ⟨k1, k2, k3, k4⟩) h5 h6 h7]
  exact congrArg some (cut_seconds (dtDate t) t hh mm ss us h8 h9)

/-- C143: `iso8601` as written returns a text that is read as the time it was called with, cut to seconds. -/
theorem C143_iso8601 (t : Int) (h : dtInRange t = true) :
    ∃ text, Gives "iso8601" [.datetime t] (.ok (.str text)) ∧ readDateTime text.toList = some (t / 1000000 * 1000000) :=
  ⟨iso8601 t, gives_of 0 1 (fun W n _ => iso8601_prog W n t h), readDateTime_iso8601 t h⟩

/-- C143, concrete: in the year 1820, of which `strftime` could not write the date. -/
example : ∃ text, Gives "iso8601" [.datetime (664729 * DAY + 3723 * 1000000)] (.ok (.str text)) ∧
    readDateTime text.toList = some (664729 * DAY + 3723 * 1000000) := C143_iso8601 _ (by decide +kernel)

/-- What a generated id looks like: the time of creation in seconds, a hyphen, who made it, an at sign and the host. -/
def IdOf (now : Int) (maker host u : String) : Prop :=
  ∃ text, readDateTime text.toList = some (now / 1000000 * 1000000) ∧ u = text ++ "-" ++ maker ++ "@" ++ host

/-- C143: `addrspec_unique_id` as written, at a time on a machine. -/
theorem C143_id (now : Int) (h : dtInRange now = true) (fqdn maker host : String) :
    ∃ u, IdOf now maker host u ∧ @Gives (Source.world now fqdn) "addrspec_unique_id" [.str maker, .str host] (.ok (.str u)) := by
  let _ : Source.Globals := Source.world now fqdn
  exact ⟨addrspecUniqueId now maker host, ⟨iso8601 now, readDateTime_iso8601 now h, rfl⟩,
    gives_of 0 2 (fun W n _ => addrspec_prog W n now fqdn h maker host)⟩

/-- C143: `createEventFromSpecification` as written without an id, at a time.  The event gets an id made from the time, the id of the
storage, the number of events in it and the host of the storage; otherwise everything is as with an id (C137). -/
theorem C143_create (L : Listing) (w : World) (now : Int) (h : dtInRange now = true) (fqdn : String) (s : Spec) (hs : Spec.Moderate s) :
    ∃ u, IdOf now (w.store.id ++ "-" ++ toString w.store.events.length) w.store.host u ∧
    (∀ x, badEntry s = some x → @Does (Source.world now fqdn) (ofManager L w.store) "createEventFromSpecification" [.none, ofSpec L s]
      [ofManager L w.store, .none, ofSpec L s] [] (some (.py x)) .none) ∧
    (∀ e, newEvent u s = .ok e → ∃ st, st.map = w.store.map.put u (some e) ∧
      @Does (Source.world now fqdn) (ofManager L w.store) "createEventFromSpecification" [.none, ofSpec L s]
        [ofManager L st, .none, ofSpec L s] [.obj "EventCreatedEvent" [("event", ofEvent L e)]] none (ofEvent L e)) := by
  let _ : Source.Globals := Source.world now fqdn
  have key : Does (ofManager L w.store) "createEventFromSpecification" [.none, ofSpec L s]
      [ofManager L (w.createEvent now none s).1.store, .none, ofSpec L s]
      (telling L "EventCreatedEvent" (w.createEvent now none s).2)
      (endOf (w.createEvent now none s).2) (given (ofEvent L) (w.createEvent now none s).2) :=
    answers_of 0 8 (fun W n _ => manager_auto_prog W n now fqdn h L w s hs)
  refine ⟨w.store.autoId now, ⟨iso8601 now, readDateTime_iso8601 now h, rfl⟩, ?_, ?_⟩
  · intro x hx
    obtain ⟨h1, _⟩ := setOnObject_outcome s (blankEvent (w.store.autoId now))
    have hn : newEvent (w.store.autoId now) s = .error (.py x) := by
      unfold newEvent
      rw [hx] at h1
      generalize s.setOnObject (blankEvent (w.store.autoId now)) = z at h1 ⊢
      obtain ⟨e, r⟩ := z
      simp only at h1
      subst h1
      rfl
    unfold World.createEvent Storage.createEvent at key
    simp only [Option.getD_none, hn] at key
    exact key
  · intro e he
    have hm := C32_latest w now none s e
    unfold World.createEvent Storage.createEvent at key hm
    simp only [Option.getD_none, he] at key hm
    refine ⟨_, ?_, key⟩
    funext k
    rw [hm trivial k, newEvent_uid he]
    rfl

/-- C143, concrete: the meeting can be created; the list of the conference has an entry with a role that does not exist. -/
example : Spec.Moderate Sample.meeting ∧ badEntry Sample.meeting = none ∧ (∃ e, newEvent "u" Sample.meeting = .ok e) ∧
    Spec.Moderate Sample.conference ∧ badEntry Sample.conference = some .AssertionError ∧ dtInRange Sample.day = true :=
  ⟨fun h => absurd h (by decide), by decide, ⟨_, rfl⟩, fun _ => by decide +kernel, by decide, by decide +kernel⟩

/-- The same for the creation of an object with keyword arguments. -/
def MakesWith [Source.Globals] (cls : String) (kw : Dict String Val) (r : M Val) : Prop :=
  ∃ N, ∀ W, N ≤ W → ∀ n, N ≤ n → Source.prog.new W n cls [] kw = r

/-- C143: `createEvent` as written, with an id and keyword arguments: if a specification can be made from these, it does what
`createEventFromSpecification` does with that specification; otherwise the exception is raised and nothing changes. -/
theorem C143_keywords (L : Listing) (w : World) (u : Uid) (d : Dict String Val) :
    (∀ s, Spec.Moderate s → MakesWith "EventSpecification" d (.ok (ofSpec L s)) →
      (∀ x, badEntry s = some x → Does (ofManager L w.store) "createEvent" [.str u, ofMap d]
        [ofManager L w.store, .str u, ofMap d] [] (some (.py x)) .none) ∧
      (∀ e, newEvent u s = .ok e → ∃ st, st.map = w.store.map.put u (some e) ∧
        Does (ofManager L w.store) "createEvent" [.str u, ofMap d]
          [ofManager L st, .str u, ofMap d] [.obj "EventCreatedEvent" [("event", ofEvent L e)]] none (ofEvent L e))) ∧
    (∀ x, MakesWith "EventSpecification" d (.error x) → Does (ofManager L w.store) "createEvent" [.str u, ofMap d]
      [ofManager L w.store, .str u, ofMap d] [] (some x) .none) := by
  have step : ∀ {s : Spec} {m' : Storage} {out : List Val} {fin : Option Stop} {v : Val},
      MakesWith "EventSpecification" d (.ok (ofSpec L s)) →
      Does (ofManager L w.store) "createEventFromSpecification" [.str u, ofSpec L s] [ofManager L m', .str u, ofSpec L s] out fin v →
      Does (ofManager L w.store) "createEvent" [.str u, ofMap d] [ofManager L m', .str u, ofMap d] out fin
        (if fin = none then v else .none) := by
    intro s m' out fin v ⟨N, hN⟩ ⟨N', hN'⟩
    refine ⟨N + N' + 1, fun W hW n hn => ?_⟩
    obtain ⟨n, rfl⟩ : ∃ k, n = k + 1 := ⟨n - 1, by omega⟩
    have h' := hN' W (by omega) n (by omega)
    exact kw_create_prog W n L w.store m' (.str u) (.str u) d s out fin v (hN W (by omega) n (by omega)) (.inr ⟨u, rfl⟩) h'
  refine ⟨fun s hs hd => ⟨fun x hx => ?_, fun e he => ?_⟩, fun x ⟨N, hN⟩ => ?_⟩
  · exact step hd ((C137_create L w u s hs).1 x hx)
  · obtain ⟨st, h1, h2⟩ := (C137_create L w u s hs).2 e he
    exact ⟨st, h1, step hd h2⟩
  · refine ⟨N + 1, fun W hW n hn => ?_⟩
    obtain ⟨n, rfl⟩ : ∃ k, n = k + 1 := ⟨n - 1, by omega⟩
    exact kw_create_error W n L w.store (.str u) d x (hN W (by omega) n (by omega))

/-- An event with a start and a title and nothing else. -/
def Sample.started : Event := (Spec.setOnObject { dtstart := Sample.day, duration := none, title := "start" } (blankEvent "k")).1

/-- C143, concrete: a start, no duration and a title are enough for an event. -/
example : Source.prog.invoke 9 14 (ofManager Sample.listing ⟨"st", "host", []⟩) "createEvent"
      [.str "k", ofMap [("dtstart", .datetime Sample.day), ("duration", .none), ("title", .str "start")]] []
    = .ok (procVal [ofManager Sample.listing ⟨"st", "host", [("k", Sample.started)]⟩,
        .str "k", ofMap [("dtstart", .datetime Sample.day), ("duration", .none), ("title", .str "start")]]
      [.obj "EventCreatedEvent" [("event", ofEvent Sample.listing Sample.started)]] none
      (ofEvent Sample.listing Sample.started)) := sameM_eq (by decide +kernel)

/-- C143, concrete: a keyword that does not exist, or no word about the duration, raises TypeError. -/
example : Source.prog.new 9 14 "EventSpecification" [] [("dtstart", .datetime Sample.day), ("duration", .none), ("tittle", .str "start")]
      = .error (.py .TypeError) ∧
    Source.prog.new 9 14 "EventSpecification" [] [("dtstart", .datetime Sample.day), ("title", .str "start")] = .error (.py .TypeError) :=
  ⟨sameM_eq (by decide +kernel), sameM_eq (by decide +kernel)⟩

/-! ### the clock -/

/-- C143: `getToday` as written is the current time, `getCurrentYear` its year, and `getRecentYears` the years from the one before to
the one after. -/
theorem C143_clock (L : Listing) (s : Storage) (src : CalCore.Source) (c : Calendar) (now : Int) (fqdn : String) :
    @Answers (Source.world now fqdn) (ofCalendar L s src c) "getToday" [] (.ok (.datetime now)) ∧
    @Answers (Source.world now fqdn) (ofCalendar L s src c) "getCurrentYear" [] (.ok (.int (dyear (now / DAY)))) ∧
    @Answers (Source.world now fqdn) (ofCalendar L s src c) "getRecentYears" []
      (.ok (.list [.int (dyear (now / DAY) - 1), .int (dyear (now / DAY)), .int (dyear (now / DAY) + 1)])) := by
  let _ : Source.Globals := Source.world now fqdn
  exact ⟨answers_of 0 1 (fun W n _ => today_prog W n now fqdn _), answers_of 0 2 (fun W n _ => thisYear_prog W n now fqdn L s src c),
    answers_of 0 3 (fun W n _ => years_prog W n now fqdn L s src c)⟩

/-- C143, concrete: on the last day of the year 1999. -/
example : @Answers (Source.world (730119 * DAY) "box") (ofCalendar Sample.listing Sample.store [] []) "getCurrentYear" []
    (.ok (.int 1999)) := (C143_clock Sample.listing Sample.store [] [] (730119 * DAY) "box").2.1

/-! ### vocabularies -/

/-- C144: a vocabulary of strings, as written, has one term for each, in order, whose value, token and title are the string; a string
that occurs twice raises ValueError. -/
theorem C144_factory (l : List String) :
    (l.Nodup → Gives "CalendarVocabularyFactory" [.list (l.map .str)] (.ok (.obj "SimpleVocabulary" [("terms", .list (l.map fun s =>
      .obj "SimpleTerm" [("value", .str s), ("token", .str s), ("title", .str s)]))]))) ∧
    (¬ l.Nodup → Gives "CalendarVocabularyFactory" [.list (l.map .str)] (.error (.py .ValueError))) :=
  ⟨fun h => gives_of 0 1 (fun W n _ => by rw [factory_prog, if_pos h]; rfl),
    fun h => gives_of 0 1 (fun W n _ => by rw [factory_prog, if_neg h])⟩

/-- C144, concrete: both happen. -/
example : ["a", "b"].Nodup ∧ ¬ ["a", "b", "a"].Nodup := by decide

/-- The values of a vocabulary. -/
def valuesOf : Val → List Val
  | .obj _ [(_, .list l)] => l.filterMap fun
    | .obj _ ((_, v) :: _) => some v
    | _ => none
  | _ => []

/-- C144: what the vocabularies, as written, let a user choose: the three states of events (spelt with one L), the three kinds of
access, the three kinds of monthly repetition, and the weekdays from 0 to 6. -/
theorem C144_vocabularies (c : Val) :
    (∃ v, Gives "CalendarEventStatusVocabulary" [c] (.ok v) ∧ valuesOf v = [.str "TENTATIVE", .str "CONFIRMED", .str "CANCELED"]) ∧
    (∃ v, Gives "CalendarEventAccessVocabulary" [c] (.ok v) ∧ valuesOf v = [.str "PUBLIC", .str "PRIVATE", .str "CONFIDENTIAL"]) ∧
    (∃ v, Gives "CalendarMontlyRecurrenceTypeVocabulary" [c] (.ok v) ∧
      valuesOf v = [.str "monthday", .str "weekday", .str "lastweekday"]) ∧
    (∃ v, Gives "CalendarWeekdaysVocabulary" [c] (.ok v) ∧ valuesOf v = [.int 0, .int 1, .int 2, .int 3, .int 4, .int 5, .int 6]) :=
  ⟨⟨_, gives_of 0 2 (fun W n _ => status_vocab_prog W n c), rfl⟩, ⟨_, gives_of 0 2 (fun W n _ => access_vocab_prog W n c), rfl⟩,
    ⟨_, gives_of 0 2 (fun W n _ => monthly_vocab_prog W n c), rfl⟩, ⟨_, gives_of 0 1 (fun W n _ => days_vocab_prog W n c), rfl⟩⟩

/-! ### periods -/

/-- C144: `Period` as written makes a pair of the start and a length, not of a start and an end; too many minutes raise
OverflowError. -/
theorem C144_period (t m : Int) :
    (-(999999999 * 1440) ≤ m ∧ m < 1000000000 * 1440 →
      Gives "Period" [.datetime t, .int m] (.ok (.tuple [.datetime t, .delta (m * 60000000)]))) ∧
    (¬ (-(999999999 * 1440) ≤ m ∧ m < 1000000000 * 1440) → Gives "Period" [.datetime t, .int m] (.error (.py .OverflowError))) := by
  constructor
  · intro h
    refine gives_of 0 1 (fun W n _ => ?_)
    rw [period_prog, mkDelta, if_pos (by unfold DAY; omega)]
    rfl
  · intro h
    refine gives_of 0 1 (fun W n _ => ?_)
    rw [period_prog, mkDelta, if_neg (by unfold DAY; omega)]
    rfl

/-- C144, the part that holds of periods as made: an event that has ended by the start of the period is not in it. -/
theorem C144_inPeriod_partial (L : Listing) (e : Event) (t m d : Int) (hd : e.duration = some d) (hr : dtInRange (e.dtstart + d) = true)
    (h : e.dtstart + d ≤ t) :
    Gives "inPeriod" [ofEvent L e, .tuple [.datetime t, .delta m]] (.ok (.bool false)) :=
  gives_of 0 1 (fun W n _ => by
    rw [ofEvent, inPeriodDelta_prog W n "Event" _ e.dtstart e.duration (t, m) rfl rfl]
    unfold inPeriodDelta dtAdd
    rw [hd]
    simp only [hr, if_true]
    show toM .bool (if e.dtstart + d ≤ t then _ else _) = _
    rw [if_pos h]
    rfl)

/-- C144: for every other event whose end is a Python datetime, asking whether it is in such a period raises TypeError, although the
answer should be yes whenever it starts within the length of the period. -/
theorem C144_inPeriod_counterexample (L : Listing) (e : Event) (t m : Int)
    (h : ∀ d, e.duration = some d → dtInRange (e.dtstart + d) = true ∧ t < e.dtstart + d) :
    Gives "inPeriod" [ofEvent L e, .tuple [.datetime t, .delta m]] (.error (.py .TypeError)) :=
  gives_of 0 1 (fun W n _ => by
    rw [ofEvent, inPeriodDelta_prog W n "Event" _ e.dtstart e.duration (t, m) rfl rfl]
    unfold inPeriodDelta dtAdd
    rcases hd : e.duration with _ | d
    · rfl
    · obtain ⟨h1, h2⟩ := h d hd
      simp only [h1, if_true]
      show toM .bool (if e.dtstart + d ≤ t then _ else _) = _
      rw [if_neg (by omega)]
      rfl)

/-- C144, concrete: the meeting takes place within the hour from ten, and asking raises TypeError; a day later it answers. -/
example : Source.prog.call 9 9 "inPeriod" [ofEvent Sample.listing Sample.met, .tuple [.datetime (Sample.day + 10 * Sample.HOUR), .delta Sample.HOUR]] []
      = .error (.py .TypeError) ∧
    Source.prog.call 9 9 "inPeriod" [ofEvent Sample.listing Sample.met, .tuple [.datetime (Sample.day + DAY), .delta Sample.HOUR]] []
      = .ok (.bool false) := ⟨sameM_eq (by decide +kernel), sameM_eq (by decide +kernel)⟩

end CalCore
