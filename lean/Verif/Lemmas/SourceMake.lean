import Verif.Lemmas.SourceModify
/- Making specifications and events, and storing them, as written. -/
namespace CalCore.Lang
open CalCore.Spec
set_option linter.unusedSectionVars false
variable [Source.Globals]

/-! ### specifications -/

theorem cats_empty (L : Listing) (hL : L.Faithful) : L.cats ∅ = [] := by
  cases h : L.cats ∅ with
  | nil => rfl
  | cons c l =>
    have := (hL ∅ c).1 (h ▸ List.mem_cons_self ..)
    simp at this

/-- The specification of which only the start and the duration are given. -/
def plainSpec (t : DateTime) (d : Option TimeDelta) : CalCore.Spec :=
  { dtstart := t, duration := d, title := "", description := "", location := "", status := "TENTATIVE", organizer := none
    recurrence := none, allday := false, categories := ∅, transparent := false, access := "PUBLIC", document := none, attendees := [] }

theorem spec_init (W n : Nat) (a b c d e f g h i j k l m o : Val) (hj : Val.is j .none = .ok false) :
    Source.prog.call W (n + 1) "EventSpecification.__init__" [.obj "EventSpecification" [], a, b, c, d, e, f, g, h, i, j, k, l, m, o] []
    = .ok (.obj "EventSpecification" [("dtstart", a), ("duration", b), ("title", c), ("description", d), ("status", f), ("location", e),
        ("organizer", g), ("recurrence", h), ("allday", i), ("categories", j), ("transparent", k), ("access", l), ("document", m),
        ("attendees", o)]) := by
  rw [call_eq (d := Source.EventSpecification_init) rfl]
  lang [Source.EventSpecification_init, hj]

theorem spec_init_none (W n : Nat) (a b c d e f g h i k l m o : Val) :
    Source.prog.call W (n + 1) "EventSpecification.__init__" [.obj "EventSpecification" [], a, b, c, d, e, f, g, h, i, .none, k, l, m, o] []
    = .ok (.obj "EventSpecification" [("dtstart", a), ("duration", b), ("title", c), ("description", d), ("status", f), ("location", e),
        ("organizer", g), ("recurrence", h), ("allday", i), ("categories", .set []), ("transparent", k), ("access", l), ("document", m),
        ("attendees", o)]) := by
  rw [call_eq (d := Source.EventSpecification_init) rfl]
  lang [Source.EventSpecification_init]

theorem spec_defaults (W n : Nat) (a b : Val) :
    Source.prog.call W (n + 1) "EventSpecification.__init__" [.obj "EventSpecification" [], a, b] []
    = Source.prog.call W (n + 1) "EventSpecification.__init__" [.obj "EventSpecification" [], a, b, .str "", .str "", .str "",
        .str "TENTATIVE", .none, .none, .bool false, .none, .bool false, .str "PUBLIC", .none, .list []] [] := by
  rw [call_eq (d := Source.EventSpecification_init) rfl, call_eq (d := Source.EventSpecification_init) rfl]
  rfl

/-- What is given to make a specification, in the order of the parameters. -/
def specArgs (L : Listing) (s : CalCore.Spec) : List Val :=
  [.datetime s.dtstart, ofOption .delta s.duration, .str s.title, .str s.description, .str s.location, .str s.status,
    ofOption (ofAttendee L) s.organizer, ofOption ofRule s.recurrence, .bool s.allday, .set ((L.cats s.categories).map .str),
    .bool s.transparent, .str s.access, ofOption .str s.document, .list (s.attendees.map (ofInvited L))]

theorem spec_init_prog (W n : Nat) (L : Listing) (s : CalCore.Spec) :
    Source.prog.call W (n + 1) "EventSpecification.__init__" (.obj "EventSpecification" [] :: specArgs L s) [] = .ok (ofSpec L s) :=
  spec_init W n _ _ _ _ _ _ _ _ _ _ _ _ _ _ rfl

theorem spec_plain_prog (W n : Nat) (L : Listing) (hL : L.Faithful) (t : DateTime) (d : Option TimeDelta) :
    Source.prog.call W (n + 1) "EventSpecification.__init__" [.obj "EventSpecification" [], .datetime t, ofOption .delta d] []
    = .ok (ofSpec L (plainSpec t d)) := by
  have h := cats_empty L hL
  have h' : ofSpec L (plainSpec t d) = .obj "EventSpecification" [("dtstart", .datetime t), ("duration", ofOption .delta d),
      ("title", .str ""), ("description", .str ""), ("status", .str "TENTATIVE"), ("location", .str ""), ("organizer", .none),
      ("recurrence", .none), ("allday", .bool false), ("categories", .set []), ("transparent", .bool false), ("access", .str "PUBLIC"),
      ("document", .none), ("attendees", .list [])] := by
    unfold ofSpec specAttrs plainSpec
    simp only [h]
    rfl
  rw [h', spec_defaults]
  exact spec_init_none ..

/-! ### events -/

theorem method_initState : Source.prog.method 4 "Event" "_initParticipationState" = some "Event._initParticipationState" := rfl
theorem method_initRole : Source.prog.method 4 "Event" "_initParticipationRole" = some "Event._initParticipationRole" := rfl
theorem method_event_init : Source.prog.method 4 "Event" "__init__" = some "EventBase.__init__" := rfl
theorem method_setOnObject : Source.prog.method 4 "EventSpecification" "setOnObject" = some "EventSpecification.setOnObject" := rfl

theorem initState_prog (W n : Nat) (o : Val) : Source.prog.call W (n + 1) "Event._initParticipationState" [o] [] = .ok (.dict []) := by
  rw [call_eq (d := Source.Event_initParticipationState) rfl]
  lang [Source.Event_initParticipationState]

theorem initRole_prog (W n : Nat) (o : Val) : Source.prog.call W (n + 1) "Event._initParticipationRole" [o] [] = .ok (.dict []) := by
  rw [call_eq (d := Source.Event_initParticipationRole) rfl]
  lang [Source.Event_initParticipationRole]

theorem invoke_spec (W n : Nat) (L : Listing) (s : CalCore.Spec) (m : String) (args : M (List Val)) :
    (Source.prog.ctx W n).invoke (ofSpec L s) m args = callClass W n "EventSpecification" (ofSpec L s) m args (.ok []) := by
  rw [ofSpec]
  unfold Ctx.invoke callClass
  simp only [ctx_method, ctx_call, M_bind_ok]
  cases args with
  | error e => rfl
  | ok xs => cases Source.prog.method 4 "EventSpecification" m <;> rfl

theorem event_attr_allday (L : Listing) (e : Event) : attrVal "allday" (ofEvent L e) = .ok (.bool e.allday) := rfl

/-- `timedelta` can hold the duration, and the next whole number of days. -/
def Fits (d : Option TimeDelta) : Prop := ∀ x, d = some x → -(999999999 * DAY) ≤ x ∧ x ≤ 999999999 * DAY

theorem allday_fits (W n : Nat) (L : Listing) (e : Event) (h : Fits e.duration) :
    Source.prog.call W (n + 1) "EventBase.alldayAdjust" [ofEvent L e] []
    = .ok (procVal [ofEvent L e.alldayAdjust] [] Option.none .none) := by
  cases hd : e.duration with
  | none => exact allday_none W n L e hd
  | some x =>
    obtain ⟨h1, h2⟩ := h x hd
    rw [allday_some W n L e x hd h1 (by unfold DAY at *; omega), if_pos h2]

theorem base_blank (u : Uid) : baseObj u [] [] [] = .obj "Event" [("unique_id", .str u), ("_participation_state", .dict []),
    ("_participation_role", .dict [])] := rfl

theorem setOn_duration (s : CalCore.Spec) (e : Event) : (s.setOnObject e).1.duration = s.duration := by
  unfold Spec.setOnObject
  have h : ∀ (l : List (Option AttId × String × String)) (e : Event), (setAttendeesLoop e l).1.duration = e.duration := by
    intro l
    induction l with
    | nil => intro e; rfl
    | cons x l ih =>
      intro e
      obtain ⟨a, r, st⟩ := x
      unfold setAttendeesLoop
      split
      · rfl
      · cases a with
        | none => rfl
        | some a => exact ih _
  rw [h]
  unfold Spec.setOrganizer
  cases s.organizer <;> rfl

end CalCore.Lang
