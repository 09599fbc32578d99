import Verif.Lemmas.Calls
import Verif.Source.Signatures

/-!
# C122 — Classes keep what their interfaces promise

A caller who knows only interfaces.py may call a method with positional and keyword arguments as declared
there.  The claim is that every such call on an instance of every class that declares the interface is
accepted and gives every parameter the value that the caller gave to it.

This is false for ten methods (`Spec.broken`).  For all others it holds, for all calls and all values
(`C122_methods_partial`), and for each of the ten there is an allowed call that fails or goes wrong
(`C122_methods_counterexample`).  Likewise for attributes: `EventSpecification` has no `unique_id` and
search criteria have no `attendee`.

Excluded is only a keyword argument called `self`, which Python cannot pass to a method.
-/

namespace CalCore

/-- The calls that a declaration allows: not too many positional arguments, keywords distinct and for
parameters not given by position (or anything else if there is a `**kw`), and nothing missing. -/
def Spec.Allowed {α : Type} (s : Sig) (c : CallArgs α) : Prop :=
  c.pos.length ≤ (s.required ++ s.optional).length ∧ (c.kw.map (·.1)).Nodup ∧
  (∀ k v, (k, v) ∈ c.kw →
    (∀ i, i < c.pos.length → (s.required ++ s.optional)[i]? ≠ some k) ∧
      (k ∈ s.required ∨ k ∈ s.optional ∨ s.kwargs = true)) ∧
  (∀ x ∈ s.required,
    (∃ i, i < c.pos.length ∧ (s.required ++ s.optional)[i]? = some x) ∨ ∃ v, (x, v) ∈ c.kw)

/-- What the caller means: the `i`-th positional argument is for the `i`-th declared parameter, a keyword
argument is for the parameter of its name. -/
def Spec.MeantFor {α : Type} (s : Sig) (c : CallArgs α) (x : String) (v : α) : Prop :=
  (∃ i : Nat, (s.required ++ s.optional)[i]? = some x ∧ c.pos[i]? = some v) ∨ (x, v) ∈ c.kw

/-- A class serves a method as declared: every allowed call is accepted, and every parameter gets the value
that is meant for it, and no other. -/
def Spec.Serves (cls m : String) (s : Sig) : Prop :=
  ∀ (α : Type) (self : α) (c : CallArgs α), Spec.Allowed s c → (∀ v, ("self", v) ∉ c.kw) →
    ∃ b, methodCall cls m self c = .ok b ∧
      ∀ x v, (x, v) ∈ b ↔ (x = "self" ∧ v = self) ∨ Spec.MeantFor s c x v

/-- The methods that do not work as declared: class, interface, method. -/
def Spec.broken : List (String × String × String) :=
  [("EventSpecification", "IEventSpecification", "export"),
   ("StorageManagerBase", "IStorageManager", "setStorage"),
   ("StorageManagerBase", "IStorageManager", "createEvent"),
   ("StorageManagerBase", "IStorageManager", "getFreePeriods"),
   ("StorageManager", "IStorageManager", "setStorage"),
   ("StorageManager", "IStorageManager", "createEvent"),
   ("StorageManager", "IStorageManager", "getFreePeriods"),
   ("SearchCriteria", "ISearchCriteria", "clone"),
   ("NullSearchCriteria", "ISearchCriteria", "clone"),
   ("EventBase", "IInvitableCalendarEvent", "getStorageId"),
   ("EventBase", "IInvitableCalendarEvent", "getEventId"),
   ("Event", "IInvitableCalendarEvent", "getStorageId"),
   ("Event", "IInvitableCalendarEvent", "getEventId"),
   ("CalendarBase", "ICalendar", "import_"),
   ("Calendar", "ICalendar", "import_"),
   ("SimpleAttendeeSource", "IAttendeeSource", "getAttendeeTypes"),
   ("MonthlyRecurrenceRule", "IMonthlyRecurrenceRule", "replace")]

/-- A syntactic condition under which a class serves a method: the declared parameters come first and in
order, and whatever is required is declared as required. -/
def covers (decl fn : Sig) : Bool :=
  match fn.params with
  | [] => false
  | p :: rest =>
    p == "self" && decl.params.isPrefixOf rest && !decl.params.contains "self" &&
    fn.required.all (fun r => r == "self" || decl.required.contains r) && (!decl.kwargs || fn.kwargs)

theorem mem_take_iff {α : Type} (l : List α) (n : Nat) (x : α) :
    x ∈ l.take n ↔ ∃ i, i < n ∧ l[i]? = some x := by
  rw [List.mem_iff_getElem?]
  constructor
  · rintro ⟨i, h⟩
    rw [List.getElem?_take] at h
    split at h
    · exact ⟨i, by assumption, h⟩
    · cases h
  · rintro ⟨i, hi, h⟩
    exact ⟨i, by rw [List.getElem?_take, if_pos hi]; exact h⟩

theorem mem_zip_iff {α β : Type} (l : List α) (p : List β) (x : α) (v : β) :
    (x, v) ∈ l.zip p ↔ ∃ i : Nat, l[i]? = some x ∧ p[i]? = some v := by
  rw [List.mem_iff_getElem?]
  simp only [List.getElem?_zip_eq_some]

theorem mem_names {α : Type} (kw : List (String × α)) (k : String) :
    k ∈ kw.map (·.1) ↔ ∃ v, (k, v) ∈ kw := by
  rw [List.mem_map]
  constructor
  · rintro ⟨⟨a, v⟩, h, rfl⟩; exact ⟨v, h⟩
  · rintro ⟨v, h⟩; exact ⟨_, h, rfl⟩

theorem take_prefix {α : Type} {l m : List α} (h : l <+: m) (n : Nat) (hn : n ≤ l.length) :
    m.take n = l.take n := by
  obtain ⟨t, rfl⟩ := h
  rw [List.take_append_of_le_length hn]

theorem serves_of_covers {cls m : String} {decl fn : Sig} (hf : classMethod cls m = some fn)
    (hc : covers decl fn = true) : Spec.Serves cls m decl := by
  intro α self c hall hself
  obtain ⟨hlen, hnodup, hkw, hreq⟩ := hall
  have hpar : decl.params = decl.required ++ decl.optional := rfl
  rw [← hpar] at hlen
  unfold covers at hc
  split at hc
  · cases hc
  rename_i p rest hp
  simp only [Bool.and_eq_true, beq_iff_eq, Bool.not_eq_true', List.all_eq_true, Bool.or_eq_true,
    List.isPrefixOf_iff_prefix, List.contains_iff_mem] at hc
  obtain ⟨⟨⟨⟨rfl, hpre⟩, hns⟩, hr⟩, hk⟩ := hc
  have hrest : rest.take c.pos.length = decl.params.take c.pos.length := take_prefix hpre _ hlen
  have hns' : "self" ∉ decl.params := by
    intro hh
    rw [← List.contains_iff_mem] at hh
    rw [hh] at hns; cases hns
  unfold methodCall
  rw [hf]
  simp only []
  refine ⟨_, (call_ok fn ⟨self :: c.pos, c.kw⟩ _).2 ⟨?_, hnodup, ?_, ?_, rfl⟩, ?_⟩
  · rw [hp]
    have := hpre.length_le
    simp only [List.length_cons]; omega
  · intro k hk'
    obtain ⟨v, hv⟩ := (mem_names _ _).1 hk'
    obtain ⟨h1, h2⟩ := hkw k v hv
    rw [hp]
    simp only [List.length_cons, List.take_succ_cons, List.mem_cons]
    have hks : k ≠ "self" := by rintro rfl; exact hself v hv
    refine ⟨?_, ?_⟩
    · rintro (e | e)
      · exact hks e
      · rw [hrest, mem_take_iff] at e
        obtain ⟨i, hi, e⟩ := e
        exact h1 i hi e
    · have : k ∈ decl.params ∨ decl.kwargs = true := by
        rw [hpar, List.mem_append]
        rcases h2 with h | h | h
        · exact .inl (.inl h)
        · exact .inl (.inr h)
        · exact .inr h
      rcases this with h | h
      · exact .inl (.inr (hpre.subset h))
      · rcases hk with hk | hk
        · rw [h] at hk; cases hk
        · exact .inr hk
  · intro x hx
    rw [hp]
    simp only [List.length_cons, List.take_succ_cons, List.mem_cons]
    rcases hr x hx with rfl | h
    · exact .inl (.inl rfl)
    · rcases hreq x h with ⟨i, hi, e⟩ | ⟨v, hv⟩
      · refine .inl (.inr ?_)
        rw [hrest, mem_take_iff]
        exact ⟨i, hi, e⟩
      · exact .inr ((mem_names _ _).2 ⟨v, hv⟩)
  · intro x v
    rw [List.mem_append, hp]
    simp only [List.zip_cons_cons, List.mem_cons, Prod.mk.injEq]
    have hz : (x, v) ∈ rest.zip c.pos ↔
        ∃ i : Nat, (decl.required ++ decl.optional)[i]? = some x ∧ c.pos[i]? = some v := by
      rw [mem_zip_iff]
      obtain ⟨t, rfl⟩ := hpre
      constructor
      · rintro ⟨i, h1, h2⟩
        obtain ⟨hi, -⟩ := List.getElem?_eq_some_iff.1 h2
        rw [List.getElem?_append_left (by omega)] at h1
        exact ⟨i, h1, h2⟩
      · rintro ⟨i, h1, h2⟩
        obtain ⟨hi, -⟩ := List.getElem?_eq_some_iff.1 h2
        refine ⟨i, ?_, h2⟩
        rw [List.getElem?_append_left (by omega)]
        exact h1
    rw [hz]
    unfold Spec.MeantFor
    constructor
    · rintro ((h | h) | h)
      · exact .inl h
      · exact .inr (.inl h)
      · exact .inr (.inr h)
    · rintro (h | h | h)
      · exact .inl (.inl h)
      · exact .inl (.inr h)
      · exact .inr h

theorem allowed_iff {α : Type} (s : Sig) (c : CallArgs α) :
    Spec.Allowed s c ↔ s.call c = .ok ((s.required ++ s.optional).zip c.pos ++ c.kw) := by
  rw [call_ok]
  have hpar : s.params = s.required ++ s.optional := rfl
  unfold Spec.Allowed
  rw [hpar]
  constructor
  · rintro ⟨h1, h2, h3, h4⟩
    refine ⟨h1, h2, ?_, ?_, rfl⟩
    · intro k hk
      obtain ⟨v, hv⟩ := (mem_names _ _).1 hk
      refine ⟨fun hh => ?_, ?_⟩
      · obtain ⟨i, hi, e⟩ := (mem_take_iff _ _ _).1 hh
        exact (h3 k v hv).1 i hi e
      · rw [List.mem_append, or_assoc]; exact (h3 k v hv).2
    · intro x hx
      rw [mem_take_iff, mem_names]; exact h4 x hx
  · rintro ⟨h1, h2, h3, h4, -⟩
    refine ⟨h1, h2, ?_, ?_⟩
    · intro k v hv
      have := h3 k ((mem_names _ _).2 ⟨v, hv⟩)
      refine ⟨fun i hi e => this.1 ((mem_take_iff _ _ _).2 ⟨i, hi, e⟩), ?_⟩
      rw [← or_assoc, ← List.mem_append]; exact this.2
    · intro x hx
      rw [← mem_take_iff, ← mem_names]; exact h4 x hx

/-- Whether a call with numbers as arguments is allowed by a declaration but fails on the class, or gives
a parameter a value that was not meant for it. -/
def goesWrong (cls m : String) (s : Sig) (c : CallArgs Nat) : Bool :=
  (match s.call c with
    | .ok r =>
      (match methodCall cls m 0 c with
        | .ok b => b.any (fun p => p != ("self", 0) && !r.contains p)
        | .error _ => true)
    | .error _ => false) && !(c.kw.any (fun p => p.1 == "self"))

theorem not_serves_of_goesWrong {cls m : String} {s : Sig} (c : CallArgs Nat)
    (h : goesWrong cls m s c = true) : ¬ Spec.Serves cls m s := by
  intro hs
  unfold goesWrong at h
  rw [Bool.and_eq_true] at h
  obtain ⟨h1, h2⟩ := h
  have hself : ∀ v, ("self", v) ∉ c.kw := by
    intro v hv
    rw [List.any_eq_true.2 ⟨_, hv, by simp⟩] at h2
    cases h2
  split at h1
  · rename_i r hr
    have hr' : r = (s.required ++ s.optional).zip c.pos ++ c.kw := ((call_ok s c r).1 hr).2.2.2.2
    have hal : Spec.Allowed s c := (allowed_iff s c).2 (by rw [hr, hr'])
    obtain ⟨b, hb, hm⟩ := hs Nat 0 c hal hself
    rw [hb] at h1
    simp only [List.any_eq_true, Bool.and_eq_true, bne_iff_ne, Bool.not_eq_true'] at h1
    obtain ⟨⟨x, v⟩, hx, hne, hnr⟩ := h1
    rcases (hm x v).1 hx with ⟨rfl, rfl⟩ | hmean
    · exact hne rfl
    · have : (x, v) ∈ r := by
        rw [hr', List.mem_append, mem_zip_iff]; exact hmean
      rw [← List.contains_iff_mem] at this
      rw [this] at hnr; cases hnr
  · cases h1

/-- Every promised method, except the broken ones, exists and covers its declaration (checked on the whole
table). -/
theorem promised_covered :
    promisedMethods.all (fun t => Spec.broken.contains t ||
      (match ifaceMethod t.2.1 t.2.2, classMethod t.1 t.2.2 with
        | some s, some f => covers s f
        | _, _ => false)) = true := by decide +kernel

/-- For the broken methods, calls that go wrong. -/
def wrongCalls : List ((String × String × String) × CallArgs Nat) :=
  [(("EventSpecification", "IEventSpecification", "export"), ⟨[], []⟩),
   (("StorageManagerBase", "IStorageManager", "setStorage"), ⟨[], [("storage_id", 1)]⟩),
   (("StorageManagerBase", "IStorageManager", "createEvent"), ⟨[1, 2, 3, 4], []⟩),
   (("StorageManagerBase", "IStorageManager", "getFreePeriods"), ⟨[1, 2, 3], [("minimum_duration", 4)]⟩),
   (("StorageManager", "IStorageManager", "setStorage"), ⟨[], [("storage_id", 1)]⟩),
   (("StorageManager", "IStorageManager", "createEvent"), ⟨[1, 2, 3, 4], []⟩),
   (("StorageManager", "IStorageManager", "getFreePeriods"), ⟨[1, 2, 3], [("minimum_duration", 4)]⟩),
   (("SearchCriteria", "ISearchCriteria", "clone"), ⟨[], [("attendee", 1)]⟩),
   (("NullSearchCriteria", "ISearchCriteria", "clone"), ⟨[], [("attendee", 1)]⟩),
   (("EventBase", "IInvitableCalendarEvent", "getStorageId"), ⟨[], []⟩),
   (("EventBase", "IInvitableCalendarEvent", "getEventId"), ⟨[], []⟩),
   (("Event", "IInvitableCalendarEvent", "getStorageId"), ⟨[], []⟩),
   (("Event", "IInvitableCalendarEvent", "getEventId"), ⟨[], []⟩),
   (("CalendarBase", "ICalendar", "import_"), ⟨[1, 2], []⟩),
   (("Calendar", "ICalendar", "import_"), ⟨[1, 2], []⟩),
   (("SimpleAttendeeSource", "IAttendeeSource", "getAttendeeTypes"), ⟨[], []⟩),
   (("MonthlyRecurrenceRule", "IMonthlyRecurrenceRule", "replace"), ⟨[1, 2, 3, 4, 5], []⟩)]

theorem broken_go_wrong :
    Spec.broken.all (fun t => promisedMethods.contains t && wrongCalls.any (fun w => w.1 == t &&
      (match ifaceMethod t.2.1 t.2.2 with
        | some s => goesWrong t.1 t.2.2 s w.2
        | none => false))) = true := by decide +kernel

/-- **C122**, as far as it holds: a method that is not broken is declared, and the class serves it as
declared, for all calls. -/
theorem C122_methods_partial {cls iface m : String} (h : (cls, iface, m) ∈ promisedMethods)
    (hb : (cls, iface, m) ∉ Spec.broken) :
    ∃ s, ifaceMethod iface m = some s ∧ Spec.Serves cls m s := by
  have := List.all_eq_true.1 promised_covered _ h
  rw [Bool.or_eq_true, List.contains_iff_mem] at this
  rcases this with this | this
  · exact absurd this hb
  · simp only [] at this
    split at this
    · rename_i s f hs hf
      exact ⟨s, hs, serves_of_covers hf this⟩
    · cases this

/-- **C122**, where it fails: a broken method is promised, and the class does not serve it. -/
theorem C122_methods_counterexample {cls iface m : String} (h : (cls, iface, m) ∈ Spec.broken) :
    (cls, iface, m) ∈ promisedMethods ∧
      ∃ s, ifaceMethod iface m = some s ∧ ¬ Spec.Serves cls m s := by
  have := List.all_eq_true.1 broken_go_wrong _ h
  rw [Bool.and_eq_true, List.contains_iff_mem] at this
  refine ⟨this.1, ?_⟩
  obtain ⟨w, -, hw⟩ := List.any_eq_true.1 this.2
  rw [Bool.and_eq_true] at hw
  have hw := hw.2
  simp only [] at hw
  split at hw
  · rename_i s hs
    exact ⟨s, hs, not_serves_of_goesWrong _ hw⟩
  · cases hw

/-- **C122**: so the broken methods are exactly those that are not served. -/
theorem C122_exactly {cls iface m : String} (h : (cls, iface, m) ∈ promisedMethods) :
    ∃ s, ifaceMethod iface m = some s ∧ (Spec.Serves cls m s ↔ (cls, iface, m) ∉ Spec.broken) := by
  by_cases hb : (cls, iface, m) ∈ Spec.broken
  · obtain ⟨-, s, hs, hn⟩ := C122_methods_counterexample hb
    exact ⟨s, hs, fun hh => absurd hh hn, fun hh => absurd hb hh⟩
  · obtain ⟨s, hs, hok⟩ := C122_methods_partial h hb
    exact ⟨s, hs, fun _ => hb, fun _ => hok⟩

/-- A call of a method that exists either binds its arguments or is a TypeError; what goes wrong goes wrong
at the call. -/
theorem C122_errors {α : Type} (cls m : String) (self : α) (c : CallArgs α) {s : Sig}
    (h : classMethod cls m = some s) :
    (∃ b, methodCall cls m self c = .ok b) ∨ methodCall cls m self c = raise .TypeError := by
  unfold methodCall
  rw [h]
  by_cases hh : ∃ b, s.call ⟨self :: c.pos, c.kw⟩ = .ok b
  · exact .inl hh
  · exact .inr (call_fails _ _ fun r hr => hh ⟨r, hr⟩)

/-- **C122** for attributes, as far as it holds: instances have every attribute that is promised. -/
theorem C122_attributes_partial {cls a : String} (h : (cls, a) ∈ promisedAttrs)
    (hb : (cls, a) ∉ [("EventSpecification", "unique_id"), ("SearchCriteria", "attendee"),
      ("NullSearchCriteria", "attendee")]) : a ∈ instanceAttrs cls := by
  have := List.all_eq_true.1 (show promisedAttrs.all (fun t =>
    [("EventSpecification", "unique_id"), ("SearchCriteria", "attendee"),
      ("NullSearchCriteria", "attendee")].contains t || (instanceAttrs t.1).contains t.2) = true by
      decide +kernel) _ h
  rw [Bool.or_eq_true, List.contains_iff_mem, List.contains_iff_mem] at this
  rcases this with this | this
  · exact absurd this hb
  · exact this

/-- **C122** for attributes, where it fails. -/
theorem C122_attributes_counterexample :
    (("EventSpecification", "unique_id") ∈ promisedAttrs ∧ "unique_id" ∉ instanceAttrs "EventSpecification") ∧
    (("SearchCriteria", "attendee") ∈ promisedAttrs ∧ "attendee" ∉ instanceAttrs "SearchCriteria") ∧
    (("NullSearchCriteria", "attendee") ∈ promisedAttrs ∧ "attendee" ∉ instanceAttrs "NullSearchCriteria") := by
  decide +kernel

/-- **C122**: the tables of the model are those that tools/translate.py extracts from the source text: all classes with
their bases, `implements` and methods, and all interfaces with their bases, attributes (`IEventParticipationChangeEvent`
declares `old_status` twice) and methods. -/
theorem C122_tables_as_written :
    classes.map (fun c => (c.name, c.base.toList, c.implements, c.methods)) = Lang.Source.classes ∧
    interfaces.map (fun d => (d.name, d.bases, d.attrs, d.methods))
      = Lang.Source.interfaces.map (fun d => (d.1, d.2.1, d.2.2.1.eraseDups, d.2.2.2)) :=
  ⟨rfl, rfl⟩

/-- `getFreePeriods` of a storage manager does not know the argument `minimum_duration` that the interface
declares: TypeError. -/
example : methodCall "StorageManager" "getFreePeriods" 0 ⟨[1, 2, 3], [("minimum_duration", 4)]⟩
    = raise .TypeError := by rfl

/-- The fifth positional argument of `replace` is `monthly` for IMonthlyRecurrenceRule, but
MonthlyRecurrenceRule takes it for `weekdays`, which it ignores. -/
example : (ifaceMethod "IMonthlyRecurrenceRule" "replace").map (fun s => s.call ⟨[1, 2, 3, 4, 5], []⟩)
      = some (.ok [("interval", 1), ("count", 2), ("until", 3), ("exceptions", 4), ("monthly", 5)]) ∧
    methodCall "MonthlyRecurrenceRule" "replace" 0 ⟨[1, 2, 3, 4, 5], []⟩
      = .ok [("self", 0), ("interval", 1), ("count", 2), ("until", 3), ("exceptions", 4), ("weekdays", 5)] :=
  ⟨rfl, rfl⟩

/-- A method that works as declared, with a call that mixes positional and keyword arguments. -/
example : ("Event", "IInvitableCalendarEvent", "getAttendeeIds") ∈ promisedMethods ∧
    ("Event", "IInvitableCalendarEvent", "getAttendeeIds") ∉ Spec.broken ∧
    methodCall "Event" "getAttendeeIds" 0 ⟨[1], [("participation_role", 2)]⟩
      = .ok [("self", 0), ("participation_status", 1), ("participation_role", 2)] :=
  ⟨by decide +kernel, by decide +kernel, rfl⟩

end CalCore
