import Verif.Lemmas.SourceEvent
import Verif.Lemmas.SourceEqual
/- Specifications of events, as written. -/
namespace CalCore.Lang
open CalCore.Spec
set_option linter.unusedSectionVars false
variable [Source.Globals]

/-! ### an event while its attributes are set -/

/-- An event with the given participation and other attributes. -/
def baseObj (uid : String) (st ro : Dict String String) (rest : List (String × Val)) : Val :=
  .obj "Event" (("unique_id", .str uid) :: ("_participation_state", ofDict st) :: ("_participation_role", ofDict ro) :: rest)

/-- The attributes of an event that come from a specification. -/
def eventRest (L : Listing) (e : Event) : List (String × Val) :=
  [("dtstart", .datetime e.dtstart), ("duration", ofOption .delta e.duration), ("title", .str e.title),
   ("description", .str e.description), ("status", .str e.status), ("location", .str e.location),
   ("recurrence", ofOption ofRule e.recurrence), ("allday", .bool e.allday),
   ("categories", .set ((L.cats e.categories).map .str)), ("transparent", .bool e.transparent),
   ("access", .str e.access), ("document", ofOption .str e.document)]

theorem ofEvent_base (L : Listing) (e : Event) :
    ofEvent L e = baseObj e.uid e.pstate e.prole (eventRest L e ++ [("_organizer_id", ofOption .str e.organizerId)]) := rfl

/-- `getattr(o, name, d)` -/
def getattrOf (G : Ctx) (name : String) (d : Val) : Val → M Val
  | .obj cls attrs => match G.attrOf cls name attrs with
    | .error (.py .AttributeError) => .ok d
    | r => r
  | _ => stuck

/-- `getattr(o, n, d)` -/
def getattrVal (G : Ctx) (n d o : Val) : M Val :=
  match n with
  | .str name => getattrOf G name d o
  | _ => stuck

theorem getattrVal_str (G : Ctx) (name : String) (d o : Val) : getattrVal G (.str name) d o = getattrOf G name d o := rfl

theorem eval_getattr (G : Ctx) (env : Env) (e n d : Expr) :
    eval G env (.getattr e n d) = (do
      let o ← eval G env e
      let n ← eval G env n
      let d ← eval G env d
      getattrVal G n d o) := by
  rw [eval]
  cases eval G env e with
  | error f => rfl
  | ok o =>
    cases eval G env n with
    | error f => rfl
    | ok n =>
      cases eval G env d with
      | error f => rfl
      | ok d =>
        simp only [M_bind_ok]
        cases o <;> cases n <;> rfl

/-- `setattr(x, n, v)` -/
def putAttrVal (env : Env) (x : String) (n v : Val) : M Env :=
  match n with
  | .str name => do
    let o ← setAttrOf name v (← env.get x)
    .ok (env.set x o)
  | _ => putAttr env x n v

theorem putAttrVal_str (env : Env) (x name : String) (v : Val) : putAttrVal env x (.str name) v = (do
    let o ← setAttrOf name v (← env.get x)
    .ok (env.set x o)) := rfl

theorem exec_setattr_of (G : Ctx) (W : Nat) (x : String) (name value : Expr) (s : State) :
    exec G W (.setattr x name value) s = s.into (do
      let n ← eval G s.env name
      let v ← eval G s.env value
      putAttrVal s.env x n v) := by
  rw [exec_setattr]
  cases eval G s.env name with
  | error f => rfl
  | ok n =>
    cases eval G s.env value with
    | error f => rfl
    | ok v =>
      simp only [M_bind_ok]
      cases n <;> first | rfl | (rw [putAttrVal_str, putAttr_eq])

/-- The environment of `setOnObject`. -/
def setEnv (S o x y m a r st : Option Val) : Env :=
  [("self", S), ("o", o), ("name", x), ("value", y), ("modified", m), ("attendee", a), ("role", r), ("status", st)]

theorem names_in (name : String) : contains (.str name) [.str "organizer", .str "attendees"]
    = .ok (decide (name = "organizer" ∨ name = "attendees")) := by
  simp only [contains, eq_str, M_bind_ok]
  by_cases h1 : name = "organizer"
  · simp [h1]
  · by_cases h2 : name = "attendees"
    · simp [h2]
    · have h1' : ¬ "organizer" = name := fun h => h1 h.symm
      have h2' : ¬ "attendees" = name := fun h => h2 h.symm
      simp [h1, h2, h1', h2']

theorem setOn_skip (G : Ctx) (W : Nat) (name : String) (v : Val) (hn : name = "organizer" ∨ name = "attendees")
    (S o x y m a r st : Option Val) (out : List Val) :
    forBody G W (.names ["name", "value"]) Source.EventSpecification_setOnObject_loop1 (.tuple [.str name, v])
      ⟨setEnv S o x y m a r st, out⟩ = (⟨setEnv S o (some (.str name)) (some v) m a r st, out⟩, .next) := by
  lang [forBody, Source.EventSpecification_setOnObject_loop1, setEnv, names_in, eq_true hn]

theorem setOn_put (G : Ctx) (W : Nat) (name : String) (v : Val) (hn : ¬ (name = "organizer" ∨ name = "attendees"))
    (o v0 o' : Val) (d : Bool) (hg : getattrOf G name (.obj "object" []) o = .ok v0) (hd : G.differ v0 v = .ok (.bool d))
    (hs : setAttrOf name v o = .ok o') (S x y m a r st : Option Val) (out : List Val) :
    forBody G W (.names ["name", "value"]) Source.EventSpecification_setOnObject_loop1 (.tuple [.str name, v])
      ⟨setEnv S (some o) x y m a r st, out⟩
    = (⟨setEnv S (some (if d then o' else o)) (some (.str name)) (some v) (if d then some (.bool true) else m) a r st, out⟩, .next) := by
  cases d
  · lang [forBody, Source.EventSpecification_setOnObject_loop1, setEnv, names_in, eq_false hn, ↓eval_getattr, getattrVal_str, hg, hd]
  · lang [forBody, Source.EventSpecification_setOnObject_loop1, setEnv, names_in, eq_false hn, ↓eval_getattr, getattrVal_str, hg, hd,
      ↓exec_setattr_of, putAttrVal_str, hs]

/-- The attribute can be set: it is there, and equal to the value only if it is the same, or it is not there. -/
def Settable (G : Ctx) (rest : List (String × Val)) (p : String × Val) : Prop :=
  (∃ v0 d, getAttr p.1 rest = .ok v0 ∧ G.differ v0 p.2 = .ok (.bool d) ∧ (d = false → v0 = p.2))
  ∨ (getAttr p.1 rest = err .AttributeError ∧ G.const "Event" p.1 = Option.none
    ∧ G.differ (.obj "object" []) p.2 = .ok (.bool true))

/-- The names that are treated in another way. -/
def apart (name : String) : Prop := name = "organizer" ∨ name = "attendees"
instance (name : String) : Decidable (apart name) := by unfold apart; infer_instance

/-- Not one of the first three attributes. -/
def late (name : String) : Prop := "unique_id" ≠ name ∧ "_participation_state" ≠ name ∧ "_participation_role" ≠ name
instance (name : String) : Decidable (late name) := by unfold late; infer_instance

/-- Set all these attributes. -/
def putAll (l rest : List (String × Val)) : List (String × Val) :=
  l.foldl (fun rest p => if apart p.1 then rest else setAttr p.1 p.2 rest) rest

theorem getAttr_setAttr_ne {n m : String} (h : n ≠ m) (v : Val) (l : List (String × Val)) :
    getAttr m (setAttr n v l) = getAttr m l := by
  induction l with
  | nil => simp [setAttr, getAttr, h]
  | cons p l ih =>
    obtain ⟨k, w⟩ := p
    unfold setAttr
    by_cases hk : k = n
    · subst hk
      rw [if_pos rfl]
      simp [getAttr, h]
    · rw [if_neg hk]
      by_cases hm : k = m
      · simp [getAttr, hm]
      · simp only [getAttr, hm, ↓reduceIte]
        exact ih

theorem setAttr_same {n : String} {v : Val} {l : List (String × Val)} (h : getAttr n l = .ok v) : setAttr n v l = l := by
  induction l with
  | nil => cases h
  | cons p l ih =>
    obtain ⟨k, w⟩ := p
    unfold setAttr
    by_cases hk : k = n
    · rw [if_pos hk]
      simp only [getAttr, hk, ↓reduceIte] at h
      cases h
      rfl
    · rw [if_neg hk]
      simp only [getAttr, hk, ↓reduceIte] at h
      rw [ih h]

theorem base_getattr {G : Ctx} {name : String} (hl : late name) (uid : String) (st ro : Dict String String) (rest : List (String × Val)) :
    getattrOf G name (.obj "object" []) (baseObj uid st ro rest)
    = match G.attrOf "Event" name rest with
      | .error (.py .AttributeError) => .ok (.obj "object" [])
      | r => r := by
  unfold baseObj getattrOf Ctx.attrOf
  simp only [getAttr, hl.1, hl.2.1, hl.2.2, ↓reduceIte]

theorem base_setAttr {name : String} (hl : late name) (v : Val) (uid : String) (st ro : Dict String String) (rest : List (String × Val)) :
    setAttrOf name v (baseObj uid st ro rest) = .ok (baseObj uid st ro (setAttr name v rest)) := by
  unfold baseObj setAttrOf
  simp only [setAttr, hl.1, hl.2.1, hl.2.2, ↓reduceIte]

theorem setOn_one (G : Ctx) (W : Nat) (p : String × Val) (uid : String) (st ro : Dict String String) (rest : List (String × Val))
    (h : ¬ apart p.1 → late p.1 ∧ Settable G rest p) (S x y m a r s : Option Val) (out : List Val) :
    ∃ m', forBody G W (.names ["name", "value"]) Source.EventSpecification_setOnObject_loop1 (.tuple [.str p.1, p.2])
      ⟨setEnv S (some (baseObj uid st ro rest)) x y m a r s, out⟩
    = (⟨setEnv S (some (baseObj uid st ro (if apart p.1 then rest else setAttr p.1 p.2 rest))) (some (.str p.1)) (some p.2) m' a r s,
        out⟩, .next) := by
  by_cases hn : apart p.1
  · rw [if_pos hn]
    exact ⟨m, setOn_skip G W p.1 p.2 hn ..⟩
  · rw [if_neg hn]
    obtain ⟨hl, hs⟩ := h hn
    obtain ⟨v0, d, hg, hd, he⟩ | ⟨hg, hc, hd⟩ := hs
    · have h1 : getattrOf G p.1 (.obj "object" []) (baseObj uid st ro rest) = .ok v0 := by
        rw [base_getattr hl, Ctx.attrOf, hg]
      refine ⟨if d = true then some (.bool true) else m, (setOn_put G W p.1 p.2 hn _ v0 _ d h1 hd (base_setAttr hl p.2 uid st ro rest) ..).trans ?_⟩
      cases d with
      | true => rfl
      | false =>
        have := he rfl
        subst this
        rw [setAttr_same hg]
        rfl
    · have h1 : getattrOf G p.1 (.obj "object" []) (baseObj uid st ro rest) = .ok (.obj "object" []) := by
        rw [base_getattr hl, Ctx.attrOf, hg]
        simp only [err, hc]
      exact ⟨_, setOn_put G W p.1 p.2 hn _ _ _ true h1 hd (base_setAttr hl p.2 uid st ro rest) ..⟩

theorem Settable.other {G : Ctx} {rest : List (String × Val)} {p : String × Val} (h : Settable G rest p) {n : String} (hn : n ≠ p.1)
    (v : Val) : Settable G (setAttr n v rest) p := by
  unfold Settable
  rw [getAttr_setAttr_ne hn]
  exact h

theorem setOn_loop (G : Ctx) (W : Nat) (uid : String) (st ro : Dict String String) (S a r s : Option Val) (out : List Val)
    (l : List (String × Val)) (hd : (l.map Prod.fst).Nodup) :
    ∀ (rest : List (String × Val)), (∀ p ∈ l, ¬ apart p.1 → late p.1 ∧ Settable G rest p) → ∀ x y m,
    ∃ x' y' m', forLoop (forBody G W (.names ["name", "value"]) Source.EventSpecification_setOnObject_loop1)
      (l.map (fun p => .tuple [.str p.1, p.2])) ⟨setEnv S (some (baseObj uid st ro rest)) x y m a r s, out⟩
    = (⟨setEnv S (some (baseObj uid st ro (putAll l rest))) x' y' m' a r s, out⟩, .next) := by
  induction l with
  | nil => intro rest _ x y m; exact ⟨x, y, m, rfl⟩
  | cons p l ih =>
    intro rest h x y m
    obtain ⟨m1, h1⟩ := setOn_one G W p uid st ro rest (h p (List.mem_cons_self ..)) S x y m a r s out
    rw [List.map_cons, List.nodup_cons] at hd
    obtain ⟨x', y', m', h2⟩ := ih hd.2 (if apart p.1 then rest else setAttr p.1 p.2 rest) (by
      intro q hq hqa
      have h0 := h q (List.mem_cons_of_mem _ hq) hqa
      split
      · exact h0
      · refine ⟨h0.1, h0.2.other ?_ _⟩
        intro he
        exact hd.1 (he ▸ List.mem_map.2 ⟨q, hq, rfl⟩)) (some (.str p.1)) (some p.2) m1
    refine ⟨x', y', m', ?_⟩
    rw [List.map_cons]
    unfold forLoop
    rw [h1]
    simp only []
    rw [h2]
    rfl

/-! ### the values that are compared -/

theorem differs_str (G : Ctx) (a b : String) :
    ∃ d, G.differ (.str a) (.str b) = .ok (.bool d) ∧ (d = false → Val.str a = .str b) :=
  ⟨!decide (a = b), by rw [differ_str, eq_str, M_bind_ok], fun h => by simp at h; rw [h]⟩

theorem differs_datetime (G : Ctx) (a b : Int) :
    ∃ d, G.differ (.datetime a) (.datetime b) = .ok (.bool d) ∧ (d = false → Val.datetime a = .datetime b) :=
  ⟨!decide (a = b), by rw [differ_datetime, eq_datetime, M_bind_ok], fun h => by simp at h; rw [h]⟩

theorem differs_bools (G : Ctx) (a b : Bool) :
    ∃ d, G.differ (.bool a) (.bool b) = .ok (.bool d) ∧ (d = false → Val.bool a = .bool b) := by
  cases a <;> cases b <;> exact ⟨_, rfl, by simp⟩

theorem differs_option_str (G : Ctx) (a b : Option String) :
    ∃ d, G.differ (ofOption .str a) (ofOption .str b) = .ok (.bool d) ∧ (d = false → ofOption Val.str a = ofOption .str b) := by
  have h : G.differ (ofOption .str a) (ofOption .str b) = .ok (.bool (!decide (a = b))) := by
    have := eq_option a b
    cases a with
    | none => rw [ofOption_none] at this ⊢; rw [differ_none, this, M_bind_ok]
    | some a => rw [ofOption_some] at this ⊢; rw [differ_str, this, M_bind_ok]
  exact ⟨_, h, fun h => by simp at h; rw [h]⟩

theorem eq_option_delta (a b : Option Int) : Val.eq (ofOption .delta a) (ofOption .delta b) = .ok (decide (a = b)) := by
  cases a <;> cases b <;> simp [ofOption, Val.eq, Val.num?]

theorem differs_option_delta (G : Ctx) (a b : Option Int) :
    ∃ d, G.differ (ofOption .delta a) (ofOption .delta b) = .ok (.bool d) ∧ (d = false → ofOption Val.delta a = ofOption .delta b) := by
  have h : G.differ (ofOption .delta a) (ofOption .delta b) = .ok (.bool (!decide (a = b))) := by
    have := eq_option_delta a b
    cases a with
    | none => rw [ofOption_none] at this ⊢; rw [differ_none, this, M_bind_ok]
    | some a => rw [ofOption_some] at this ⊢; rw [differ_delta, this, M_bind_ok]
  exact ⟨_, h, fun h => by simp at h; rw [h]⟩

theorem differs_rules (W n : Nat) (a b : Option Rule) :
    ∃ d, (Source.prog.ctx W (n + 3)).differ (ofOption ofRule a) (ofOption ofRule b) = .ok (.bool d)
      ∧ (d = false → ofOption ofRule a = ofOption ofRule b) :=
  ⟨_, differ_rules W n a b, fun h => by simp at h; rw [h]⟩

theorem within_strs (l l' : List String) :
    sameSet.within (l.map .str) (l'.map .str) = .ok (decide (∀ x ∈ l, x ∈ l')) := by
  induction l with
  | nil => rw [List.map_nil, sameSet.within]; simp
  | cons a l ih =>
    rw [List.map_cons, sameSet.within, contains_strs, M_bind_ok, ih]
    by_cases h : a ∈ l' <;> simp [h]

theorem sameSet_strs (l l' : List String) :
    sameSet (l.map .str) (l'.map .str) = .ok (decide ((∀ x ∈ l, x ∈ l') ∧ ∀ x ∈ l', x ∈ l)) := by
  unfold sameSet
  rw [within_strs, M_bind_ok, within_strs]
  by_cases h1 : ∀ x ∈ l, x ∈ l'
  · rw [if_pos (by simpa using h1)]
    congr 1
    rw [decide_eq_decide]
    exact ⟨fun h2 => ⟨h1, h2⟩, fun h => h.2⟩
  · rw [if_neg (by simpa using h1)]
    congr 1
    symm
    rw [decide_eq_false_iff_not]
    exact fun h => h1 h.1

theorem differ_cats (G : Ctx) (L : Listing) (hL : L.Faithful) (a b : Finset String) :
    G.differ (.set ((L.cats a).map .str)) (.set ((L.cats b).map .str)) = .ok (.bool (decide (a ≠ b))) := by
  rw [differ_set_set, sameSet_strs, M_bind_ok]
  congr 2
  by_cases h : a = b
  · simp [h]
  · have hne : ¬ ((∀ x ∈ L.cats a, x ∈ L.cats b) ∧ ∀ x ∈ L.cats b, x ∈ L.cats a) := by
      intro hx
      exact h (Finset.ext (fun x => by rw [← hL a x, ← hL b x]; exact ⟨hx.1 x, hx.2 x⟩))
    rw [decide_eq_false hne]
    simp [h]

theorem differs_cats (G : Ctx) (L : Listing) (hL : L.Faithful) (a b : Finset String) :
    ∃ d, G.differ (.set ((L.cats a).map .str)) (.set ((L.cats b).map .str)) = .ok (.bool d)
      ∧ (d = false → Val.set ((L.cats a).map .str) = .set ((L.cats b).map .str)) :=
  ⟨_, differ_cats G L hL a b, fun h => by simp at h; rw [h]⟩

theorem Settable.there {G : Ctx} {rest : List (String × Val)} {name : String} {v0 v : Val} (h : getAttr name rest = .ok v0)
    (hd : ∃ d, G.differ v0 v = .ok (.bool d) ∧ (d = false → v0 = v)) : Settable G rest (name, v) :=
  .inl (by obtain ⟨d, h1, h2⟩ := hd; exact ⟨v0, d, h, h1, h2⟩)

theorem settable_event (W n : Nat) (L : Listing) (hL : L.Faithful) (e : Event) (s : CalCore.Spec) (tail : List (String × Val)) :
    ∀ p ∈ specAttrs L s, ¬ apart p.1 → late p.1 ∧ Settable (Source.prog.ctx W (n + 3)) (eventRest L e ++ tail) p := by
  intro p hp ha
  simp only [specAttrs, List.mem_cons, List.not_mem_nil, or_false] at hp
  rcases hp with h | h | h | h | h | h | h | h | h | h | h | h | h | h <;> subst h
  · exact ⟨by unfold late; simp only []; decide, .there rfl (differs_datetime ..)⟩
  · exact ⟨by unfold late; simp only []; decide, .there rfl (differs_option_delta ..)⟩
  · exact ⟨by unfold late; simp only []; decide, .there rfl (differs_str ..)⟩
  · exact ⟨by unfold late; simp only []; decide, .there rfl (differs_str ..)⟩
  · exact ⟨by unfold late; simp only []; decide, .there rfl (differs_str ..)⟩
  · exact ⟨by unfold late; simp only []; decide, .there rfl (differs_str ..)⟩
  · exact absurd (.inl rfl) ha
  · exact ⟨by unfold late; simp only []; decide, .there rfl (differs_rules ..)⟩
  · exact ⟨by unfold late; simp only []; decide, .there rfl (differs_bools ..)⟩
  · exact ⟨by unfold late; simp only []; decide, .there rfl (differs_cats _ L hL ..)⟩
  · exact ⟨by unfold late; simp only []; decide, .there rfl (differs_bools ..)⟩
  · exact ⟨by unfold late; simp only []; decide, .there rfl (differs_str ..)⟩
  · exact ⟨by unfold late; simp only []; decide, .there rfl (differs_option_str ..)⟩
  · exact absurd (.inr rfl) ha

theorem marker_plain (W n : Nat) (v : Val) (h : ∀ c attrs, v ≠ .obj c attrs) :
    (Source.prog.ctx W n).differ (.obj "object" []) v = .ok (.bool true) := by
  have h1 : Source.prog.method 4 "object" "__ne__" = Option.none := rfl
  have h2 : Source.prog.method 4 "object" "__cmp__" = Option.none := rfl
  rw [differ_obj]
  unfold Ctx.compareObj
  simp only [ctx_method, h1, h2]

theorem isa_marker (W n : Nat) :
    [Cls.user "BasicRecurrenceRule"].any (fun c => isInstance (Source.prog.ctx W n).isa c (.obj "object" [])) = false := rfl

theorem marker_rule (W n : Nat) (r : Rule) :
    (Source.prog.ctx W (n + 3)).differ (.obj "object" []) (ofRule r) = .ok (.bool true) := by
  have h1 : Source.prog.method 4 "object" "__ne__" = Option.none := rfl
  have h2 : Source.prog.method 4 "object" "__cmp__" = Option.none := rfl
  have h3 : Source.prog.call W (n + 2) "BasicRecurrenceRule.__eq__" [ofRule r, .obj "object" []] [] = .ok (.bool false) := by
    rw [call_eq (d := Source.BasicRecurrenceRule__eq_) rfl]
    lang [Source.BasicRecurrenceRule__eq_, isa_marker]
  have h4 : Source.prog.call W (n + 3) "BasicRecurrenceRule.__ne__" [ofRule r, .obj "object" []] [] = .ok (.bool true) := by
    rw [call_eq (d := Source.BasicRecurrenceRule__ne_) rfl]
    lang [Source.BasicRecurrenceRule__ne_, equal_rule, h3]
  rw [differ_obj]
  unfold Ctx.compareObj
  simp only [ctx_method, h1, h2]
  rw [ofRule] at h4 ⊢
  simp only [method_ne, ctx_call]
  exact h4

theorem marker_option {α : Type} (W n : Nat) (f : α → Val) (hf : ∀ a c attrs, f a ≠ .obj c attrs) (a : Option α) :
    (Source.prog.ctx W n).differ (.obj "object" []) (ofOption f a) = .ok (.bool true) := by
  cases a with
  | none => exact marker_plain W n _ (by intro c attrs; exact Val.noConfusion)
  | some a => exact marker_plain W n _ (hf a)

theorem settable_new (W n : Nat) (L : Listing) (s : CalCore.Spec) :
    ∀ p ∈ specAttrs L s, ¬ apart p.1 → late p.1 ∧ Settable (Source.prog.ctx W (n + 3)) [] p := by
  intro p hp ha
  simp only [specAttrs, List.mem_cons, List.not_mem_nil, or_false] at hp
  rcases hp with h | h | h | h | h | h | h | h | h | h | h | h | h | h <;> subst h
  · exact ⟨by unfold late; simp only []; decide, .inr ⟨rfl, rfl, marker_plain _ _ _ (by intro c attrs; exact Val.noConfusion)⟩⟩
  · exact ⟨by unfold late; simp only []; decide, .inr ⟨rfl, rfl, marker_option _ _ _ (by intro a c attrs; exact Val.noConfusion) _⟩⟩
  · exact ⟨by unfold late; simp only []; decide, .inr ⟨rfl, rfl, marker_plain _ _ _ (by intro c attrs; exact Val.noConfusion)⟩⟩
  · exact ⟨by unfold late; simp only []; decide, .inr ⟨rfl, rfl, marker_plain _ _ _ (by intro c attrs; exact Val.noConfusion)⟩⟩
  · exact ⟨by unfold late; simp only []; decide, .inr ⟨rfl, rfl, marker_plain _ _ _ (by intro c attrs; exact Val.noConfusion)⟩⟩
  · exact ⟨by unfold late; simp only []; decide, .inr ⟨rfl, rfl, marker_plain _ _ _ (by intro c attrs; exact Val.noConfusion)⟩⟩
  · exact absurd (.inl rfl) ha
  · refine ⟨by unfold late; simp only []; decide, .inr ⟨rfl, rfl, ?_⟩⟩
    cases s.recurrence with
    | none => exact marker_plain _ _ _ (by intro c attrs; exact Val.noConfusion)
    | some r => exact marker_rule W n r
  · exact ⟨by unfold late; simp only []; decide, .inr ⟨rfl, rfl, marker_plain _ _ _ (by intro c attrs; exact Val.noConfusion)⟩⟩
  · exact ⟨by unfold late; simp only []; decide, .inr ⟨rfl, rfl, marker_plain _ _ _ (by intro c attrs; exact Val.noConfusion)⟩⟩
  · exact ⟨by unfold late; simp only []; decide, .inr ⟨rfl, rfl, marker_plain _ _ _ (by intro c attrs; exact Val.noConfusion)⟩⟩
  · exact ⟨by unfold late; simp only []; decide, .inr ⟨rfl, rfl, marker_plain _ _ _ (by intro c attrs; exact Val.noConfusion)⟩⟩
  · exact ⟨by unfold late; simp only []; decide, .inr ⟨rfl, rfl, marker_option _ _ _ (by intro a c attrs; exact Val.noConfusion) _⟩⟩
  · exact absurd (.inr rfl) ha

theorem putAll_event (L : Listing) (e : Event) (s : CalCore.Spec) (tail : List (String × Val)) :
    putAll (specAttrs L s) (eventRest L e ++ tail) = eventRest L (s.setAttrs e) ++ tail := rfl

theorem putAll_new (L : Listing) (u : Uid) (s : CalCore.Spec) :
    putAll (specAttrs L s) [] = eventRest L (s.setAttrs (blankEvent u)) := rfl

/-! ### the organizer -/

theorem on_base (W n : Nat) (uid : String) (st ro : Dict String String) (rest : List (String × Val)) (m : String) (args : M (List Val)) :
    (Source.prog.ctx W n).invoke (baseObj uid st ro rest) m args
    = callClass W n "Event" (baseObj uid st ro rest) m args (.ok []) := by
  rw [baseObj]
  unfold Ctx.invoke callClass
  simp only [ctx_method, ctx_call, M_bind_ok]
  cases args with
  | error e => rfl
  | ok xs => cases Source.prog.method 4 "Event" m <;> rfl

theorem base_set_state (uid : String) (st ro : Dict String String) (rest : List (String × Val)) (a s : String) :
    setItemOf "_participation_state" (.str s) (.ok (.str a)) (baseObj uid st ro rest) = .ok (baseObj uid (Dict.set st a s) ro rest) := by
  have h := setItem_ofDict st a s
  unfold baseObj setItemOf ofDict
  simp only [getAttr, String.reduceEq, ↓reduceIte, M_bind_ok, h, setAttr]

theorem base_set_role (uid : String) (st ro : Dict String String) (rest : List (String × Val)) (a s : String) :
    setItemOf "_participation_role" (.str s) (.ok (.str a)) (baseObj uid st ro rest) = .ok (baseObj uid st (Dict.set ro a s) rest) := by
  have h := setItem_ofDict ro a s
  unfold baseObj setItemOf ofDict
  simp only [getAttr, String.reduceEq, ↓reduceIte, M_bind_ok, h, setAttr]

theorem raw_base (W n : Nat) (L : Listing) (uid : String) (st ro : Dict String String) (rest : List (String × Val)) (a s : String) :
    Source.prog.call W (n + 2) "EventBase._setParticipationStatus" [baseObj uid st ro rest, ofAttendee L a, .str s] []
    = .ok (procVal [baseObj uid (Dict.set st a s) ro rest, ofAttendee L a, .str s] [] Option.none .none) := by
  have h := getAttendeeId_prog W n L a
  rw [call_eq (d := Source.EventBase_setParticipationStatus_) rfl]
  lang [Source.EventBase_setParticipationStatus_, ↓eval_method, on_attendee, callClass_some method_getAttendeeId, h,
    ↓assign_attrItem, base_set_state]

theorem role_base (W n : Nat) (L : Listing) (uid : String) (st ro : Dict String String) (rest : List (String × Val)) (a r : String)
    (hr : r ∈ roles) :
    Source.prog.call W (n + 2) "EventBase.setParticipationRole" [baseObj uid st ro rest, ofAttendee L a, .str r] []
    = .ok (procVal [baseObj uid st (Dict.set ro a r) rest, ofAttendee L a, .str r] [] Option.none .none) := by
  have h := getAttendeeId_prog W n L a
  rw [call_eq (d := Source.EventBase_setParticipationRole) rfl]
  lang [Source.EventBase_setParticipationRole, ↓eval_method, on_attendee, callClass_some method_getAttendeeId, h,
    contains_roles, eq_true hr, ↓assign_attrItem, base_set_role]

theorem role_bad (W n : Nat) (o a : Val) (r : String) (hr : r ∉ roles) :
    Source.prog.call W (n + 2) "EventBase.setParticipationRole" [o, a, .str r] []
    = .ok (procVal [o, a, .str r] [] (some (.py .AssertionError)) .none) := by
  rw [call_eq (d := Source.EventBase_setParticipationRole) rfl]
  lang [Source.EventBase_setParticipationRole, contains_roles, eq_false hr]

theorem method_none (G : Ctx) (m : String) (xs : M (List Val)) (ks : M (List (String × Val))) :
    callMethod G .none m xs ks = .error (.py .AttributeError) := rfl

theorem role_none (W n : Nat) (L : Listing) (e : Event) (r : String) (hr : r ∈ roles) :
    Source.prog.call W (n + 2) "EventBase.setParticipationRole" [ofEvent L e, .none, .str r] []
    = .ok (procVal [ofEvent L e, .none, .str r] [] (some (.py .AttributeError)) .none) := by
  have h : setItemOf "_participation_role" (.str r) (.error (.py .AttributeError)) (ofEvent L e) = .error (.py .AttributeError) := rfl
  rw [call_eq (d := Source.EventBase_setParticipationRole) rfl]
  lang [Source.EventBase_setParticipationRole, contains_roles, eq_true hr, ↓assign_attrItem, ↓eval_method, method_none, h]

/-- What comes next. -/
def ctlOf : Res Unit → Ctl
  | .ok () => .next
  | .error f => .stop (ofFault f)

theorem invited_step (W n : Nat) (L : Listing) (e : Event) (x : Option AttId × String × String) (S X Y M A R T : Option Val) (out : List Val) :
    ∃ a r t, forBody (Source.prog.ctx W (n + 2)) W (.names ["attendee", "role", "status"]) Source.EventSpecification_setOnObject_loop2
      (ofInvited L x) ⟨setEnv S (some (ofEvent L e)) X Y M A R T, out⟩
    = (⟨setEnv S (some (ofEvent L (setAttendeesLoop e [x]).1)) X Y M a r t, out⟩, ctlOf (setAttendeesLoop e [x]).2) := by
  obtain ⟨a, r, st⟩ := x
  simp only [setAttendeesLoop, ofInvited]
  by_cases hr : r ∈ roles
  · rw [if_neg (not_not.2 hr)]
    cases a with
    | none =>
      have h := role_none W n L e r hr
      exact ⟨_, _, _, by
        lang [forBody, Source.EventSpecification_setOnObject_loop2, setEnv, ofOption_none, invoke_event, callClass_some method_setRole, h,
          after_var_stop, putArgs_none, putArgs_str, List.append_nil]
        rfl⟩
    | some a =>
      have h1 := role_base W n L e.uid e.pstate e.prole
        (eventRest L e ++ [("_organizer_id", ofOption .str e.organizerId)]) a r hr
      have h2 := raw_base W n L e.uid e.pstate (Dict.set e.prole a r)
        (eventRest L e ++ [("_organizer_id", ofOption .str e.organizerId)]) a st
      exact ⟨_, _, _, by
        lang [forBody, Source.EventSpecification_setOnObject_loop2, setEnv, ofOption_some, ofEvent_base, on_base,
          callClass_some method_setRole, callClass_some method_setStatusRaw, h1, h2,
          after_var, putArgs_attendee, putArgs_str, List.append_nil]
        rfl⟩
  · rw [if_pos hr]
    cases a with
    | none =>
      have h := role_bad W n (ofEvent L e) .none r hr
      exact ⟨_, _, _, by
        lang [forBody, Source.EventSpecification_setOnObject_loop2, setEnv, ofOption_none, invoke_event, callClass_some method_setRole, h,
          after_var_stop, putArgs_none, putArgs_str, List.append_nil]
        rfl⟩
    | some a =>
      have h := role_bad W n (ofEvent L e) (ofAttendee L a) r hr
      exact ⟨_, _, _, by
        lang [forBody, Source.EventSpecification_setOnObject_loop2, setEnv, ofOption_some, invoke_event, callClass_some method_setRole, h,
          after_var_stop, putArgs_attendee, putArgs_str, List.append_nil]
        rfl⟩

theorem invited_cons (e : Event) (x : Option AttId × String × String) (l : List (Option AttId × String × String)) :
    setAttendeesLoop e (x :: l) = match (setAttendeesLoop e [x]).2 with
      | .ok () => setAttendeesLoop (setAttendeesLoop e [x]).1 l
      | .error f => ((setAttendeesLoop e [x]).1, .error f) := by
  obtain ⟨a, r, st⟩ := x
  conv => lhs; unfold setAttendeesLoop
  simp only [setAttendeesLoop]
  by_cases hr : r ∈ roles
  · rw [if_neg (not_not.2 hr), if_neg (not_not.2 hr)]
    cases a <;> rfl
  · rw [if_pos hr, if_pos hr]
    rfl

theorem invited_loop (W n : Nat) (L : Listing) (S X Y M : Option Val) (out : List Val) (l : List (Option AttId × String × String)) :
    ∀ (e : Event) (A R T : Option Val), ∃ a r t,
    forLoop (forBody (Source.prog.ctx W (n + 2)) W (.names ["attendee", "role", "status"]) Source.EventSpecification_setOnObject_loop2)
      (l.map (ofInvited L)) ⟨setEnv S (some (ofEvent L e)) X Y M A R T, out⟩
    = (⟨setEnv S (some (ofEvent L (setAttendeesLoop e l).1)) X Y M a r t, out⟩, ctlOf (setAttendeesLoop e l).2) := by
  induction l with
  | nil => intro e A R T; exact ⟨A, R, T, rfl⟩
  | cons x l ih =>
    intro e A R T
    obtain ⟨a, r, t, h⟩ := invited_step W n L e x S X Y M A R T out
    rw [List.map_cons, invited_cons]
    unfold forLoop
    rw [h]
    cases (setAttendeesLoop e [x]).2 with
    | ok u => exact ih _ a r t
    | error f => exact ⟨a, r, t, rfl⟩

/-! ### the whole of `setOnObject` -/

theorem spec_attr_organizer (L : Listing) (s : CalCore.Spec) :
    attrVal "organizer" (ofSpec L s) = .ok (ofOption (ofAttendee L) s.organizer) := rfl
theorem spec_attr_attendees (L : Listing) (s : CalCore.Spec) :
    attrVal "attendees" (ofSpec L s) = .ok (.list (s.attendees.map (ofInvited L))) := rfl

/-- `o.__dict__.items()` -/
def attrItemsOf : Val → M Val
  | .obj _ attrs => .ok (.list (attrs.map (fun p => .tuple [.str p.1, p.2])))
  | _ => stuck

theorem eval_attrItems (G : Ctx) (env : Env) (e : Expr) : eval G env (.attrItems e) = (do attrItemsOf (← eval G env e)) := by
  rw [eval]
  rfl

theorem spec_items (L : Listing) (s : CalCore.Spec) :
    attrItemsOf (ofSpec L s) = .ok (.list ((specAttrs L s).map (fun p => .tuple [.str p.1, p.2]))) := rfl

theorem truthy_invited (L : Listing) (l : List (Option AttId × String × String)) :
    Val.truthy (.list (l.map (ofInvited L))) = !l.isEmpty := by
  cases l <;> rfl

theorem putArgs_attr (e : Expr) (name : String) (es : List Expr) (v : Val) (vs : List Val) (env : Env) :
    Env.putArgs (.attr e name :: es) (v :: vs) env = Env.putArgs es vs env := by
  cases v <;> rfl

theorem base_organizer (L : Listing) (e : Event) (o : Option AttId) (tail : List (String × Val))
    (ht : tail = [] ∨ ∃ v, tail = [("_organizer_id", v)]) (uid : String) (st ro : Dict String String) :
    setAttrOf "_organizer_id" (ofOption .str o) (baseObj uid st ro (eventRest L e ++ tail))
    = .ok (ofEvent L { e with uid := uid, pstate := st, prole := ro, organizerId := o }) := by
  rw [base_setAttr (by unfold late; decide), ofEvent_base]
  congr 2
  obtain rfl | ⟨v, rfl⟩ := ht <;> rfl

/-- `if self.attendees: for (attendee, role, status) in self.attendees: ...` -/
def invitedStmt : Stmt := .ite (.attr (.var "self") "attendees") [
  .for (.names ["attendee", "role", "status"]) (.attr (.var "self") "attendees") Source.EventSpecification_setOnObject_loop2 []] []

theorem invited_stmt (W n : Nat) (L : Listing) (s : CalCore.Spec) (e : Event) (X Y M A R T : Option Val) (out : List Val) :
    ∃ a r t, exec (Source.prog.ctx W (n + 2)) W invitedStmt ⟨setEnv (some (ofSpec L s)) (some (ofEvent L e)) X Y M A R T, out⟩
    = (⟨setEnv (some (ofSpec L s)) (some (ofEvent L (setAttendeesLoop e s.attendees).1)) X Y M a r t, out⟩,
        ctlOf (setAttendeesLoop e s.attendees).2) := by
  cases hl : s.attendees with
  | nil =>
    exact ⟨A, R, T, by
      lang [invitedStmt, setEnv, ↓eval_attr, spec_attr_attendees, hl]
      rfl⟩
  | cons x l =>
    obtain ⟨a, r, t, h⟩ := invited_loop W n L (some (ofSpec L s)) X Y M out (x :: l) e A R T
    unfold setEnv at h
    refine ⟨a, r, t, ?_⟩
    generalize setAttendeesLoop e (x :: l) = z at h ⊢
    obtain ⟨e', r'⟩ := z
    rw [List.map_cons] at h
    have ht : Val.truthy (.list (ofInvited L x :: l.map (ofInvited L))) = true := rfl
    cases r' with
    | ok u => lang [invitedStmt, setEnv, ↓eval_attr, spec_attr_attendees, hl, ht, h, ctlOf]
    | error f => lang [invitedStmt, setEnv, ↓eval_attr, spec_attr_attendees, hl, ht, h, ctlOf]

/-- The organizer is set. -/
def setOrgStmt : Stmt := .ite (.cmp .isNot (.attr (.var "self") "organizer") (.const .none)) [
  .proc none "o" none "_setParticipationStatus" [(.attr (.var "self") "organizer"), (.const (.str "ACCEPTED"))],
  .proc none "o" none "setParticipationRole" [(.attr (.var "self") "organizer"), (.const (.str "REQ-PARTICIPANT"))],
  .assign (.attr "o" "_organizer_id") (.method (.attr (.var "self") "organizer") "getAttendeeId" [] [])] [
  .assign (.attr "o" "_organizer_id") (.const .none)]

theorem setOnObject_eq : Source.EventSpecification_setOnObject = {
    kind := .proc
    params := [("self", none), ("o", none)]
    locals := ["name", "value", "modified", "attendee", "role", "status"]
    body := [.for (.names ["name", "value"]) (.attrItems (.var "self")) Source.EventSpecification_setOnObject_loop1 [],
      setOrgStmt, invitedStmt] } := rfl

theorem setOn_prog (W n : Nat) (L : Listing) (s : CalCore.Spec) (e : Event) (rest tail : List (String × Val))
    (ht : tail = [] ∨ ∃ v, tail = [("_organizer_id", v)])
    (hs : ∀ p ∈ specAttrs L s, ¬ apart p.1 → late p.1 ∧ Settable (Source.prog.ctx W (n + 3)) rest p)
    (hp : putAll (specAttrs L s) rest = eventRest L (s.setAttrs e) ++ tail) :
    Source.prog.call W (n + 4) "EventSpecification.setOnObject" [ofSpec L s, baseObj e.uid e.pstate e.prole rest] []
    = .ok (procVal [ofSpec L s, ofEvent L (s.setOnObject e).1] [] (endOf (s.setOnObject e).2) .none) := by
  obtain ⟨x, y, m, h1⟩ := setOn_loop (Source.prog.ctx W (n + 3)) W e.uid e.pstate e.prole (some (ofSpec L s)) Option.none Option.none
    Option.none [] (specAttrs L s) (by unfold specAttrs; simp only [List.map]; decide) rest hs Option.none Option.none Option.none
  obtain ⟨a, r, t, h3⟩ := invited_stmt W (n + 1) L s (s.setOrganizer (s.setAttrs e)) x y m Option.none Option.none Option.none []
  rw [hp] at h1
  unfold setEnv at h1 h3
  rw [call_eq (d := Source.EventSpecification_setOnObject) rfl]
  unfold Spec.setOnObject
  generalize setAttendeesLoop (s.setOrganizer (s.setAttrs e)) s.attendees = z at h3 ⊢
  obtain ⟨e', r'⟩ := z
  cases ho : s.organizer with
  | none =>
    have h2 := base_organizer L (s.setAttrs e) Option.none tail ht e.uid e.pstate e.prole
    have h4 : ofEvent L { s.setAttrs e with uid := e.uid, pstate := e.pstate, prole := e.prole, organizerId := Option.none }
        = ofEvent L (s.setOrganizer (s.setAttrs e)) := by unfold Spec.setOrganizer; rw [ho]; rfl
    rw [h4, ofOption_none] at h2
    cases r' with
    | ok u =>
      lang [setOnObject_eq, setOrgStmt, ↓eval_attrItems, spec_items, h1, ↓eval_attr, spec_attr_organizer, ho, ofOption_none,
        ↓assign_attr, h2, h3, ctlOf, endOf]
    | error f =>
      lang [setOnObject_eq, setOrgStmt, ↓eval_attrItems, spec_items, h1, ↓eval_attr, spec_attr_organizer, ho, ofOption_none,
        ↓assign_attr, h2, h3, ctlOf, endOf]
  | some o =>
    have h2 := base_organizer L (s.setAttrs e) (some o) tail ht e.uid (Dict.set e.pstate o "ACCEPTED") (Dict.set e.prole o "REQ-PARTICIPANT")
    have h4 : ofEvent L { s.setAttrs e with
          uid := e.uid, pstate := Dict.set e.pstate o "ACCEPTED", prole := Dict.set e.prole o "REQ-PARTICIPANT"
          organizerId := some o }
        = ofEvent L (s.setOrganizer (s.setAttrs e)) := by unfold Spec.setOrganizer; rw [ho]; rfl
    rw [h4, ofOption_some] at h2
    have h5 := raw_base W (n + 1) L e.uid e.pstate e.prole (eventRest L (s.setAttrs e) ++ tail) o "ACCEPTED"
    have h6 := role_base W (n + 1) L e.uid (Dict.set e.pstate o "ACCEPTED") e.prole (eventRest L (s.setAttrs e) ++ tail) o
      "REQ-PARTICIPANT" (by decide)
    have h7 := getAttendeeId_prog W (n + 2) L o
    have hn : Val.is (ofAttendee L o) .none = .ok false := rfl
    cases r' with
    | ok u =>
      lang [setOnObject_eq, setOrgStmt, ↓eval_attrItems, spec_items, h1, ↓eval_attr, spec_attr_organizer, ho, ofOption_some,
        hn, on_base, callClass_some method_setRole, callClass_some method_setStatusRaw, h5, h6, after_var, putArgs_attr, putArgs_const,
        ↓eval_method, on_attendee, callClass_some method_getAttendeeId, h7, ↓assign_attr, h2, List.append_nil, h3, ctlOf, endOf]
    | error f =>
      lang [setOnObject_eq, setOrgStmt, ↓eval_attrItems, spec_items, h1, ↓eval_attr, spec_attr_organizer, ho, ofOption_some,
        hn, on_base, callClass_some method_setRole, callClass_some method_setStatusRaw, h5, h6, after_var, putArgs_attr, putArgs_const,
        ↓eval_method, on_attendee, callClass_some method_getAttendeeId, h7, ↓assign_attr, h2, List.append_nil, h3, ctlOf, endOf]

theorem setOnObject_prog (W n : Nat) (L : Listing) (hL : L.Faithful) (s : CalCore.Spec) (e : Event) :
    Source.prog.call W (n + 4) "EventSpecification.setOnObject" [ofSpec L s, ofEvent L e] []
    = .ok (procVal [ofSpec L s, ofEvent L (s.setOnObject e).1] [] (endOf (s.setOnObject e).2) .none) := by
  rw [ofEvent_base L e]
  exact setOn_prog W n L s e _ _ (.inr ⟨_, rfl⟩) (settable_event W n L hL e s _) (putAll_event L e s _)

theorem setOnNew_prog (W n : Nat) (L : Listing) (s : CalCore.Spec) (u : Uid) :
    Source.prog.call W (n + 4) "EventSpecification.setOnObject" [ofSpec L s, baseObj u [] [] []] []
    = .ok (procVal [ofSpec L s, ofEvent L (s.setOnObject (blankEvent u)).1] [] (endOf (s.setOnObject (blankEvent u)).2) .none) :=
  setOn_prog W n L s (blankEvent u) [] [] (.inl rfl) (settable_new W n L s) (by rw [putAll_new L u s, List.append_nil])

end CalCore.Lang
