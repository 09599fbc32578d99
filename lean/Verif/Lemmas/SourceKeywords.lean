import Verif.Lemmas.SourceImportWhole
/- Calls with keyword arguments only, and the creation of events by attendees, as written. -/
namespace CalCore.Lang
open CalCore.Spec
set_option linter.unusedSectionVars false

/-! ### parameters by keywords -/

/-- The keywords name parameters only, and every parameter without default. -/
def KwFits (ps : List (String × Option Val)) (kw : List (String × Val)) : Prop :=
  (∀ p ∈ kw, ∃ q ∈ ps, q.1 = p.1) ∧ ∀ q ∈ ps, q.2 = Option.none → ∃ p ∈ kw, p.1 = q.1

/-- The value of a parameter. -/
def paramOf (kw : List (String × Val)) (q : String × Option Val) : Val :=
  (Dict.get? kw q.1).getD (q.2.getD .none)

theorem get_filter_ne (kw : List (String × Val)) (x y : String) (h : y ≠ x) :
    Dict.get? (kw.filter (fun p => p.1 ≠ x)) y = Dict.get? kw y := by
  unfold Dict.get?
  congr 1
  induction kw with
  | nil => rfl
  | cons p l ih =>
    by_cases hx : p.1 = x
    · have hy : ¬ p.1 = y := fun e => h (e.symm.trans hx)
      rw [List.filter_cons_of_neg (by simp [hx]), List.find?_cons_of_neg (by simp [hy]), ih]
    · rw [List.filter_cons_of_pos (by simp [hx])]
      by_cases hy : p.1 = y
      · rw [List.find?_cons_of_pos (by simp [hy]), List.find?_cons_of_pos (by simp [hy])]
      · rw [List.find?_cons_of_neg (by simp [hy]), List.find?_cons_of_neg (by simp [hy]), ih]

theorem find_none_not (kw : List (String × Val)) (x : String) (h : kw.find? (fun p => p.1 = x) = Option.none) :
    ∀ p ∈ kw, p.1 ≠ x := by
  intro p hp hx
  have := List.find?_eq_none.1 h p hp
  simp [hx] at this

/-- Parameters by keywords: the values are those of the keywords, and the defaults of the others. -/
theorem bindParams_fits : ∀ (ps : List (String × Option Val)) (kw : List (String × Val)), (ps.map (·.1)).Nodup → KwFits ps kw →
    bindParams ps [] kw = .ok (ps.map (fun q => (q.1, some (paramOf kw q))))
  | [], kw, _, h => by
    cases kw with
    | nil => rfl
    | cons p l => obtain ⟨q, hq, _⟩ := h.1 p (List.mem_cons_self ..); cases hq
  | (x, d) :: ps, kw, hn, h => by
    rw [List.map_cons, List.nodup_cons] at hn
    have hne : ∀ q ∈ ps, q.1 ≠ x := fun q hq e => hn.1 (List.mem_map.2 ⟨q, hq, e⟩)
    unfold bindParams
    cases hf : kw.find? (fun p => p.1 = x) with
    | some p =>
      obtain ⟨y, v⟩ := p
      simp only []
      have hfit : KwFits ps (kw.filter (fun p => p.1 ≠ x)) := by
        refine ⟨fun p hp => ?_, fun q hq hd => ?_⟩
        · rw [List.mem_filter] at hp
          obtain ⟨q, hq, e⟩ := h.1 p hp.1
          cases hq with
          | head => simp [← e] at hp
          | tail _ hq => exact ⟨q, hq, e⟩
        · obtain ⟨p, hp, e⟩ := h.2 q (List.mem_cons_of_mem _ hq) hd
          exact ⟨p, List.mem_filter.2 ⟨hp, by simp [e, hne q hq]⟩, e⟩
      rw [bindParams_fits ps _ hn.2 hfit, M_bind_ok, List.map_cons]
      have h1 : paramOf kw (x, d) = v := by
        unfold paramOf Dict.get?
        simp only [hf, Option.map_some, Option.getD_some]
      rw [h1]
      congr 2
      refine List.map_congr_left (fun q hq => ?_)
      unfold paramOf
      rw [get_filter_ne kw x q.1 (hne q hq)]
    | none =>
      have hno := find_none_not kw x hf
      cases d with
      | none =>
        obtain ⟨p, hp, e⟩ := h.2 (x, Option.none) (List.mem_cons_self ..) rfl
        exact absurd e (hno p hp)
      | some v =>
        simp only []
        have hfit : KwFits ps kw := by
          refine ⟨fun p hp => ?_, fun q hq hd => h.2 q (List.mem_cons_of_mem _ hq) hd⟩
          obtain ⟨q, hq, e⟩ := h.1 p hp
          cases hq with
          | head => exact absurd e.symm (hno p hp)
          | tail _ hq => exact ⟨q, hq, e⟩
        rw [bindParams_fits ps _ hn.2 hfit, M_bind_ok, List.map_cons]
        have h1 : paramOf kw (x, some v) = v := by
          unfold paramOf Dict.get?
          simp only [hf, Option.map_none, Option.getD_none, Option.getD_some]
        rw [h1]

/-- Otherwise the call raises TypeError. -/
theorem bindParams_not : ∀ (ps : List (String × Option Val)) (kw : List (String × Val)), (ps.map (·.1)).Nodup → ¬ KwFits ps kw →
    bindParams ps [] kw = .error (.py .TypeError)
  | [], kw, _, h => by
    cases kw with
    | nil => exact absurd ⟨fun p hp => (by cases hp), fun q hq => (by cases hq)⟩ h
    | cons p l => rfl
  | (x, d) :: ps, kw, hn, h => by
    rw [List.map_cons, List.nodup_cons] at hn
    have hne : ∀ q ∈ ps, q.1 ≠ x := fun q hq e => hn.1 (List.mem_map.2 ⟨q, hq, e⟩)
    unfold bindParams
    cases hf : kw.find? (fun p => p.1 = x) with
    | some p =>
      obtain ⟨y, v⟩ := p
      simp only []
      have hx : ∃ p ∈ kw, p.1 = x := ⟨_, List.mem_of_find?_eq_some hf, by simpa using List.find?_some hf⟩
      have hfit : ¬ KwFits ps (kw.filter (fun p => p.1 ≠ x)) := by
        intro hfit
        refine h ⟨fun p hp => ?_, fun q hq hd => ?_⟩
        · by_cases e : p.1 = x
          · exact ⟨_, List.mem_cons_self .., e.symm⟩
          · obtain ⟨q, hq, e'⟩ := hfit.1 p (List.mem_filter.2 ⟨hp, by simp [e]⟩)
            exact ⟨q, List.mem_cons_of_mem _ hq, e'⟩
        · cases hq with
          | head => exact hx
          | tail _ hq =>
            obtain ⟨p, hp, e⟩ := hfit.2 q hq hd
            exact ⟨p, (List.mem_filter.1 hp).1, e⟩
      rw [bindParams_not ps _ hn.2 hfit]
      rfl
    | none =>
      cases d with
      | none => rfl
      | some v =>
        simp only []
        have hfit : ¬ KwFits ps kw := by
          intro hfit
          refine h ⟨fun p hp => ?_, fun q hq hd => ?_⟩
          · obtain ⟨q, hq, e⟩ := hfit.1 p hp
            exact ⟨q, List.mem_cons_of_mem _ hq, e⟩
          · cases hq with
            | head => cases hd
            | tail _ hq => exact hfit.2 q hq hd
        rw [bindParams_not ps _ hn.2 hfit]
        rfl
theorem bindParams_ok {ps : List (String × Option Val)} {kw : List (String × Val)} {env : Env} (hn : (ps.map (·.1)).Nodup)
    (h : bindParams ps [] kw = .ok env) : KwFits ps kw := by
  by_cases hf : KwFits ps kw
  · exact hf
  · rw [bindParams_not ps kw hn hf] at h
    cases h

/-- One keyword more that names a parameter. -/
theorem KwFits.set {ps : List (String × Option Val)} {kw : List (String × Val)} (h : KwFits ps kw) (x : String) (v : Val)
    (hx : ∃ q ∈ ps, q.1 = x) : KwFits ps (Dict.set kw x v) := by
  have hk : ∀ k : String, (∃ p ∈ Dict.set kw x v, p.1 = k) ↔ k = x ∨ ∃ p ∈ kw, p.1 = k := by
    intro k
    clear h
    induction kw with
    | nil => simp [Dict.set, eq_comm]
    | cons p l ih =>
      unfold Dict.set
      by_cases e : p.1 = x
      · rw [if_pos e]
        constructor
        · rintro ⟨q, hq, rfl⟩
          cases hq with
          | head => exact .inl rfl
          | tail _ hq => exact .inr ⟨q, List.mem_cons_of_mem _ hq, rfl⟩
        · rintro (rfl | ⟨q, hq, rfl⟩)
          · exact ⟨_, List.mem_cons_self .., rfl⟩
          · cases hq with
            | head => exact ⟨_, List.mem_cons_self .., e.symm⟩
            | tail _ hq => exact ⟨q, List.mem_cons_of_mem _ hq, rfl⟩
      · rw [if_neg e]
        constructor
        · rintro ⟨q, hq, rfl⟩
          cases hq with
          | head => exact .inr ⟨_, List.mem_cons_self .., rfl⟩
          | tail _ hq =>
            rcases ih.1 ⟨q, hq, rfl⟩ with e' | ⟨q', hq', e'⟩
            · exact .inl e'
            · exact .inr ⟨q', List.mem_cons_of_mem _ hq', e'⟩
        · rintro (hkx | ⟨q, hq, rfl⟩)
          · obtain ⟨q, hq, e'⟩ := ih.2 (.inl hkx)
            exact ⟨q, List.mem_cons_of_mem _ hq, e'⟩
          · cases hq with
            | head => exact ⟨_, List.mem_cons_self .., rfl⟩
            | tail _ hq =>
              obtain ⟨q', hq', e'⟩ := ih.2 (.inr ⟨q, hq, rfl⟩)
              exact ⟨q', List.mem_cons_of_mem _ hq', e'⟩
  refine ⟨fun p hp => ?_, fun q hq hd => (hk q.1).2 (.inr (h.2 q hq hd))⟩
  rcases (hk p.1).1 ⟨p, hp, rfl⟩ with e | ⟨p', hp', e⟩
  · rw [e]; exact hx
  · obtain ⟨q, hq, e'⟩ := h.1 p' hp'
    exact ⟨q, hq, e'.trans e⟩

theorem get_set_same (kw : List (String × Val)) (x : String) (v : Val) : Dict.get? (Dict.set kw x v) x = some v := by
  induction kw with
  | nil => simp [Dict.set, Dict.get?]
  | cons p l ih =>
    unfold Dict.set
    by_cases e : p.1 = x
    · rw [if_pos e]; simp [Dict.get?]
    · rw [if_neg e]
      unfold Dict.get? at ih ⊢
      rw [List.find?_cons_of_neg (by simp [e]), ih]

theorem get_set_other (kw : List (String × Val)) (x y : String) (v : Val) (h : y ≠ x) :
    Dict.get? (Dict.set kw x v) y = Dict.get? kw y := by
  induction kw with
  | nil => simp [Dict.set, Dict.get?, h.symm]
  | cons p l ih =>
    unfold Dict.set
    by_cases e : p.1 = x
    · rw [if_pos e]
      unfold Dict.get?
      rw [List.find?_cons_of_neg (by simp [h.symm]), List.find?_cons_of_neg (by simp [e, h.symm])]
    · rw [if_neg e]
      unfold Dict.get? at ih ⊢
      by_cases e' : p.1 = y
      · rw [List.find?_cons_of_pos (by simp [e']), List.find?_cons_of_pos (by simp [e'])]
      · rw [List.find?_cons_of_neg (by simp [e']), List.find?_cons_of_neg (by simp [e']), ih]

/-! ### specifications by keywords -/

/-- The parameters of `EventSpecification` without `self`. -/
def specParams : List (String × Option Val) := Source.EventSpecification_init.params.tail

theorem specParams_nodup : (specParams.map (·.1)).Nodup := by decide +kernel

/-- What `categories` becomes. -/
def catsOf (j : Val) : M Val := do if ← Val.is j .none then .ok (.set []) else .ok j

/-- The object made from the value of each parameter. -/
def specFrom (f : String → Val) : M Val := do
  let j ← catsOf (f "categories")
  .ok (.obj "EventSpecification" [("dtstart", f "dtstart"), ("duration", f "duration"), ("title", f "title"),
    ("description", f "description"), ("status", f "status"), ("location", f "location"), ("organizer", f "organizer"),
    ("recurrence", f "recurrence"), ("allday", f "allday"), ("categories", j), ("transparent", f "transparent"),
    ("access", f "access"), ("document", f "document"), ("attendees", f "attendees")])

/-- The value of the parameter with a name. -/
def specArg (kw : List (String × Val)) (x : String) : Val :=
  match specParams.find? (fun q => q.1 = x) with
  | some q => paramOf kw q
  | Option.none => .none

theorem spec_kw [Source.Globals] (W n : Nat) (kw : List (String × Val)) :
    (KwFits specParams kw → Source.prog.new W (n + 1) "EventSpecification" [] kw = specFrom (specArg kw)) ∧
    (¬ KwFits specParams kw → Source.prog.new W (n + 1) "EventSpecification" [] kw = .error (.py .TypeError)) := by
  have hb : bindParams Source.EventSpecification_init.params [.obj "EventSpecification" []] kw
      = (do .ok (("self", some (.obj "EventSpecification" [])) :: (← bindParams specParams [] kw))) := rfl
  have hnew : Source.prog.new W (n + 1) "EventSpecification" [] kw
      = Source.prog.call W (n + 1) "EventSpecification.__init__" [.obj "EventSpecification" []] kw := rfl
  constructor
  · intro h
    rw [hnew, call_eq (d := Source.EventSpecification_init) rfl]
    rw [bindParams_fits _ _ specParams_nodup h, M_bind_ok] at hb
    have hm : (specParams.map (fun q => (q.1, some (paramOf kw q)))) = [("dtstart", some (specArg kw "dtstart")),
      ("duration", some (specArg kw "duration")), ("title", some (specArg kw "title")), ("description", some (specArg kw "description")),
      ("location", some (specArg kw "location")), ("status", some (specArg kw "status")), ("organizer", some (specArg kw "organizer")),
      ("recurrence", some (specArg kw "recurrence")), ("allday", some (specArg kw "allday")), ("categories", some (specArg kw "categories")),
      ("transparent", some (specArg kw "transparent")), ("access", some (specArg kw "access")), ("document", some (specArg kw "document")),
      ("attendees", some (specArg kw "attendees"))] := rfl
    rw [hm] at hb
    generalize specArg kw = f at hb ⊢
    unfold specFrom catsOf
    unfold FunDef.call FunDef.run
    rw [hb, M_bind_ok]
    cases hj : Val.is (f "categories") .none with
    | error e => lang [Source.EventSpecification_init, hj]
    | ok b => cases b <;> lang [Source.EventSpecification_init, hj]
  · intro h
    rw [hnew, call_eq (d := Source.EventSpecification_init) rfl]
    unfold FunDef.call FunDef.run
    rw [hb, bindParams_not _ _ specParams_nodup h]
    rfl

theorem specArg_organizer (kw : List (String × Val)) (v : Val) : specArg (Dict.set kw "organizer" v) "organizer" = v := by
  have h : ∀ kw, specArg kw "organizer" = (Dict.get? kw "organizer").getD .none := fun _ => rfl
  rw [h, get_set_same]
  rfl

theorem specArg_other (kw : List (String × Val)) (v : Val) (x : String) (hx : x ≠ "organizer") :
    specArg (Dict.set kw "organizer" v) x = specArg kw x := by
  unfold specArg
  cases hf : specParams.find? (fun q => q.1 = x) with
  | none => rfl
  | some q =>
    have hq : q.1 = x := by simpa using List.find?_some hf
    simp only [paramOf, hq, get_set_other kw "organizer" x v hx]

/-- With the keyword `organizer` set to an attendee, the specification is the same but for the organizer. -/
theorem spec_organizer [Source.Globals] (W n : Nat) (L : Listing) (d : Dict String Val) (s : CalCore.Spec) (a : AttId)
    (h : Source.prog.new W (n + 1) "EventSpecification" [] d = .ok (ofSpec L s)) :
    Source.prog.new W (n + 1) "EventSpecification" [] (Dict.set d "organizer" (ofAttendee L a))
      = .ok (ofSpec L { s with organizer := some a }) := by
  by_cases hf : KwFits specParams d
  · rw [(spec_kw W n d).1 hf] at h
    rw [(spec_kw W n _).1 (hf.set "organizer" _ ⟨("organizer", some .none), by simp [specParams, Source.EventSpecification_init], rfl⟩)]
    unfold specFrom at h ⊢
    rw [specArg_organizer]
    simp only [specArg_other _ _ _ (by decide : "dtstart" ≠ "organizer"), specArg_other _ _ _ (by decide : "duration" ≠ "organizer"),
      specArg_other _ _ _ (by decide : "title" ≠ "organizer"), specArg_other _ _ _ (by decide : "description" ≠ "organizer"),
      specArg_other _ _ _ (by decide : "status" ≠ "organizer"), specArg_other _ _ _ (by decide : "location" ≠ "organizer"),
      specArg_other _ _ _ (by decide : "recurrence" ≠ "organizer"), specArg_other _ _ _ (by decide : "allday" ≠ "organizer"),
      specArg_other _ _ _ (by decide : "categories" ≠ "organizer"), specArg_other _ _ _ (by decide : "transparent" ≠ "organizer"),
      specArg_other _ _ _ (by decide : "access" ≠ "organizer"), specArg_other _ _ _ (by decide : "document" ≠ "organizer"),
      specArg_other _ _ _ (by decide : "attendees" ≠ "organizer")]
    generalize catsOf (specArg d "categories") = j at h ⊢
    cases j with
    | error e => cases h
    | ok j =>
      rw [M_bind_ok] at h ⊢
      injection h with h
      unfold ofSpec specAttrs at h ⊢
      injection h with h1 h
      simp only [List.cons.injEq, Prod.mk.injEq, true_and, and_true] at h
      obtain ⟨e1, e2, e3, e4, e5, e6, _, e8, e9, e10, e11, e12, e13, e14⟩ := h
      rw [e1, e2, e3, e4, e5, e6, e8, e9, e10, e11, e12, e13, e14]
      rfl
  · rw [(spec_kw W n d).2 hf] at h
    cases h

/-! ### attendees create events -/

/-- An attendee, after what its storage manager uses changed to `s`. -/
def attendeeWith (L : Listing) (s : Storage) (a : AttId) : Val :=
  .obj "Attendee" (setAttr "_storage_manager" (ofManager L s) (("_attendee_id", .str a) :: L.person a))

theorem method_manager_kw [Source.Globals] :
    Source.prog.method 4 "StorageManager" "createEvent" = some "StorageManagerBase.createEvent" := rfl

theorem share_attendee (L : Listing) (a : AttId) (s : Storage) (h : getAttr "_attendee_source" (L.person a) = .error (.py .AttributeError)) :
    shareObj (ofManager L s) (ofAttendee L a) = .ok (attendeeWith L s a) := by
  have h' : getAttr "_attendee_source" (("_attendee_id", .str a) :: L.person a) = .error (.py .AttributeError) := h
  unfold ofManager ofAttendee shareObj shareIn shareManager attendeeWith
  simp only [h', ↓reduceIte, M_bind_ok]
  rfl

theorem att_create_prog [Source.Globals] [Weekdays] (W n : Nat) (L : Listing) (m m' : Storage) (a : AttId) (ha : L.Uses m a)
    (hs : getAttr "_attendee_source" (L.person a) = .error (.py .AttributeError)) (d : Dict String Val)
    (out : List Val) (fin : Option Stop) (v : Val)
    (h : Source.prog.call W (n + 1) "StorageManagerBase.createEvent" [ofManager L m, .none, ofMap (Dict.set d "organizer" (ofAttendee L a))] []
      = .ok (procVal [ofManager L m', .none, ofMap (Dict.set d "organizer" (ofAttendee L a))] out fin v)) :
    Source.prog.call W (n + 2) "AttendeeBase.createEvent" [ofAttendee L a, ofMap d] []
      = .ok (procVal [attendeeWith L m' a, ofMap (Dict.set d "organizer" (ofAttendee L a))] out fin (if fin = none then v else .none)) := by
  have hm := att_manager_prog W n L m a ha
  have hi := setItem_any (fun v : Val => v) d "organizer" (ofAttendee L a)
  have hsh := share_attendee L a m' hs
  have hcall : ∀ args kw, callMethod (Source.prog.ctx W (n + 1)) (ofAttendee L a) "_getStorageManager" args kw
    = callClass W (n + 1) "Attendee" (ofAttendee L a) "_getStorageManager" args kw := fun _ _ => by rw [ofAttendee]; rfl
  rw [call_eq (d := Source.AttendeeBase_createEvent) rfl]
  have hpa : ∀ (l : List (Val × Val)) (env : Env), Env.putArgs [.const .none, .var "kw"] [.none, .dict l] env = env := fun _ _ => rfl
  generalize ofAttendee L a = A at *
  unfold ofMap at h ⊢
  cases fin with
  | none =>
    lang [Source.AttendeeBase_createEvent, hi, ↓eval_method, hcall, callClass_some method_att_manager, hm, exec_shared, invoke_manager,
      callClass_some method_manager_kw, h, after_var_assign, share_state, hpa, hsh, sharing_ok]
  | some e =>
    lang [Source.AttendeeBase_createEvent, hi, ↓eval_method, hcall, callClass_some method_att_manager, hm, exec_shared, invoke_manager,
      callClass_some method_manager_kw, h, after_var_stop, share_state, hpa, hsh, sharing_ok]
end CalCore.Lang
