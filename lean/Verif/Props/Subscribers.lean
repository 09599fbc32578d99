import Verif.Props.Objects
/- Subscribers: C88 (subscribers that only look), C89 (answering invitations), C91 (notification ends). -/
namespace CalCore
open Spec

/-! ### C88 -/

/-- The subscriber makes no calls. -/
def Passive (sub : Heap → HNote → Prog) : Prop := ∀ h n, sub h n = .done ∨ ∃ e, sub h n = .fail e

/-- C88: subscribers that only look make no difference to any call. -/
theorem C88_looks (sub : Heap → HNote → Prog) (hsub : ∀ h n, sub h n = .done) (fuel : Nat) (h : Heap) (c : Call) :
    h.call (react sub (fuel + 1)) c = h.call quiet c := by
  have : react sub (fuel + 1) = quiet := by
    funext h n
    unfold react
    simp only [hsub]
    rfl
  rw [this]

/-- C88 for subscribers that make no calls but may raise: creations, deletions and changes of a status take
effect just the same, and only the outcome can be different.  Missing: `invite` and `import_`, which stop where
the subscriber raises (`C88_invite_counterexample`). -/
theorem C88_raises_partial (sub : Heap → HNote → Prog) (hsub : Passive sub) (fuel : Nat) (h : Heap) (c : Call)
    (hc : (∃ now uid spec, c = .create now uid spec) ∨ (∃ r, c = .delete r) ∨ ∃ r a st, c = .setStatus r a st) :
    (h.call (react sub (fuel + 1)) c).1 = (h.call quiet c).1 ∧
    ∀ f, (h.call quiet c).2 = .error f → (h.call (react sub (fuel + 1)) c).2 = .error f := by
  have key : ∀ (h : Heap) (n : HNote), (react sub (fuel + 1) h n).1 = (quiet h n).1 := by
    intro h n
    unfold react
    simp only []
    rcases hsub { h with log := h.log ++ [n] } n with hs | ⟨e, hs⟩ <;> rw [hs] <;> rfl
  have hq : ∀ (h : Heap) (n : HNote), (quiet h n).2 = .ok () := fun _ _ => rfl
  rcases hc with ⟨now, uid, spec, rfl⟩ | ⟨r, rfl⟩ | ⟨r, a, st, rfl⟩
  · unfold Heap.call Heap.createEvent
    simp only []
    cases newEvent (uid.getD (addrspecUniqueId now (h.id ++ "-" ++ toString h.events.length) h.host)) spec with
    | error f => exact ⟨rfl, fun _ hf => hf⟩
    | ok e =>
      simp only []
      have h1 := key (h.add (uid.getD (addrspecUniqueId now (h.id ++ "-" ++ toString h.events.length) h.host)) e)
        ⟨h.next, .created e.uid⟩
      cases hx : react sub (fuel + 1) (h.add (uid.getD (addrspecUniqueId now (h.id ++ "-" ++ toString h.events.length) h.host)) e)
        ⟨h.next, .created e.uid⟩ with
      | mk h' r =>
        rw [hx] at h1
        simp only [quiet] at h1 ⊢
        refine ⟨?_, fun f hf => by cases hf⟩
        cases r <;> exact h1
  · unfold Heap.call Heap.deleteEvent
    simp only []
    split
    · exact ⟨key _ _, fun f hf => by cases hf⟩
    · exact ⟨rfl, fun _ hf => hf⟩
  · unfold Heap.call Heap.setStatus
    simp only []
    split
    · exact ⟨rfl, fun _ hf => hf⟩
    · split
      · exact ⟨rfl, fun _ hf => hf⟩
      · cases (h.obj r).setStatusRaw a st with
        | mk e res =>
          cases res with
          | error f => exact ⟨rfl, fun _ hf => hf⟩
          | ok _ => exact ⟨key _ _, fun f hf => by cases hf⟩

/-- A store with a meeting organized by Alice. -/
def Sample.objects : Heap := (freshHeap "st" "host").runOps [.create 0 (some "m") { Sample.meeting with attendees := [] }]

/-- A subscriber that raises whenever it hears of a participation. -/
def Sample.picky : Heap → HNote → Prog := fun _ n =>
  match n.note with
  | .participation .. => .fail .ValueError
  | _ => .done

/-- C88 fails for `invite`: it is interrupted between status and role.  Bob is invited without a role, Carol is not
invited, and Bob cannot be removed in one go. -/
theorem C88_invite_counterexample :
    let x := Sample.objects.call (react Sample.picky 5) (.invite 0 ["bob", "carol"])
    Passive Sample.picky ∧ x.2 = raise .ValueError ∧
      (x.1.obj 0).getStatus "bob" = some "NEEDS-ACTION" ∧ (x.1.obj 0).getRole "bob" = none ∧
      (x.1.obj 0).getStatus "carol" = none ∧
      (x.1.call quiet (.setStatus 0 "bob" none)).2 = raise .KeyError := by
  refine ⟨?_, by decide +kernel⟩
  intro h n
  unfold Sample.picky
  cases n.note
  case participation => exact Or.inr ⟨_, rfl⟩
  all_goals exact Or.inl rfl

/-- C88, concrete: the status is changed although the call raises. -/
example :
    let x := Sample.objects.call (react Sample.picky 5) (.setStatus 0 "alice" (some "DECLINED"))
    x.2 = raise .ValueError ∧ (x.1.obj 0).getStatus "alice" = some "DECLINED" := by decide +kernel

/-! ### C89 -/

/-- Make one call and pass its exception on. -/
def Prog.just (c : Call) : Prog :=
  .call c (fun _ r => match r with
    | .error (.py e) => .fail e
    | _ => .done)

/-- A subscriber that answers invitations for some attendees, by changing their status to `policy a`. -/
def answering (policy : AttId → Option (Option String)) : Heap → HNote → Prog := fun _ n =>
  match n.note with
  | .participation _ a none (some "NEEDS-ACTION") =>
    match policy a with
    | some st => .just (.setStatus n.ref a st)
    | none => .done
  | _ => .done

theorem answering_other (policy : AttId → Option (Option String)) (h : Heap) (n : HNote)
    (hn : ∀ u a, n.note ≠ .participation u a none (some "NEEDS-ACTION")) : answering policy h n = .done := by
  unfold answering
  split
  · rename_i u a hx; exact absurd hx (hn u a)
  · rfl

theorem react_answering_other (policy : AttId → Option (Option String)) (fuel : Nat) (h : Heap) (n : HNote)
    (hn : ∀ u a, n.note ≠ .participation u a none (some "NEEDS-ACTION")) :
    react (answering policy) (fuel + 1) h n = ({ h with log := h.log ++ [n] }, .ok ()) := by
  unfold react
  simp only []
  rw [answering_other policy _ n hn]
  rfl

/-- What a change of status by the subscriber does. -/
theorem setStatus_answer (policy : AttId → Option (Option String)) (fuel : Nat) (h : Heap) (r : Ref) (a : AttId)
    (st : String) (hst : some st ∈ statuses) (h0 : (h.obj r).getStatus a = some "NEEDS-ACTION") :
    ∃ l, h.setStatus (react (answering policy) (fuel + 1)) r a (some st) =
      ({ h.put r { h.obj r with pstate := Dict.set (h.obj r).pstate a st } with log := h.log ++ l }, .ok ()) ∨
      (st = "NEEDS-ACTION" ∧ h.setStatus (react (answering policy) (fuel + 1)) r a (some st) = (h, .ok ())) := by
  unfold Heap.setStatus
  rw [if_neg (by simpa using hst)]
  simp only [h0]
  by_cases he : some "NEEDS-ACTION" = some st
  · rw [if_pos he]
    injection he with he
    exact ⟨[], Or.inr ⟨he.symm, rfl⟩⟩
  · rw [if_neg he]
    simp only [Event.setStatusRaw]
    rw [react_answering_other]
    · exact ⟨[⟨r, .participation (h.obj r).uid a (some "NEEDS-ACTION") (some st)⟩], Or.inl rfl⟩
    · intro u b hx; simp at hx

/-- One invitation with an answering subscriber. -/
theorem inviteOne_answered (policy : AttId → Option (Option String))
    (hpol : ∀ a st, policy a = some st → ∃ s, st = some s ∧ st ∈ statuses) (fuel : Nat) (h : Heap) (r : Ref) (a : AttId) :
    ∃ h', h.inviteOne (react (answering policy) (fuel + 2)) r a = (h', .ok ()) ∧ h'.events = h.events ∧
      (∀ r', r' ≠ r → h'.obj r' = h.obj r') ∧ SameButParticipation (h.obj r) (h'.obj r) ∧
      ∀ b, (h'.obj r).getStatus b = (if b = a ∧ (h.obj r).getStatus a = none
          then some (((policy a).getD (some "NEEDS-ACTION")).getD "") else (h.obj r).getStatus b) ∧
        (h'.obj r).getRole b = (if b = a ∧ (h.obj r).getStatus a = none then some "REQ-PARTICIPANT"
          else (h.obj r).getRole b) := by
  unfold Heap.inviteOne
  by_cases h0 : (h.obj r).getStatus a = none
  · rw [if_pos h0]
    -- the change of status, with the reaction to it
    have hset : ∃ (l : List HNote) (d : Dict AttId String),
        h.setStatus (react (answering policy) (fuel + 2)) r a (some "NEEDS-ACTION") =
          ({ h.put r { h.obj r with pstate := d } with log := h.log ++ l }, .ok ()) ∧
        ∀ b, Dict.get? d b = if b = a then some (((policy a).getD (some "NEEDS-ACTION")).getD "")
          else (h.obj r).getStatus b := by
      unfold Heap.setStatus
      rw [if_neg (by decide)]
      simp only [h0]
      rw [if_neg (by simp)]
      simp only [Event.setStatusRaw]
      generalize hn : (⟨r, .participation (h.obj r).uid a none (some "NEEDS-ACTION")⟩ : HNote) = n
      generalize hh : ({ h.put r { h.obj r with pstate := Dict.set (h.obj r).pstate a "NEEDS-ACTION" } with
        log := h.log ++ [n] } : Heap) = h1
      have hstep : react (answering policy) (fuel + 2)
          (h.put r { h.obj r with pstate := Dict.set (h.obj r).pstate a "NEEDS-ACTION" }) n =
          Heap.exec (react (answering policy) (fuel + 1)) h1 (answering policy h1 n) := by
        rw [← hh]
        rfl
      rw [hstep]
      have hobj : h1.obj r = { h.obj r with pstate := Dict.set (h.obj r).pstate a "NEEDS-ACTION" } := by
        rw [← hh]; exact Heap.put_obj ..
      have hans : answering policy h1 n = match policy a with
          | some st => .just (.setStatus r a st)
          | none => .done := by rw [← hn]; rfl
      rw [hans]
      have hget : ∀ (st : String) b, Dict.get? (Dict.set (Dict.set (h.obj r).pstate a "NEEDS-ACTION") a st) b =
          if b = a then some st else (h.obj r).getStatus b := by
        intro st b
        rw [Dict.get?_set, Dict.get?_set]
        by_cases hab : b = a
        · rw [if_pos hab.symm, if_pos hab]
        · rw [if_neg (fun hx => hab hx.symm), if_neg (fun hx => hab hx.symm), if_neg hab]; rfl
      cases hp : policy a with
      | none =>
        refine ⟨[n], Dict.set (h.obj r).pstate a "NEEDS-ACTION", ?_, ?_⟩
        · rw [← hh]; rfl
        · intro b
          rw [Dict.get?_set]
          by_cases hab : b = a
          · rw [if_pos hab.symm, if_pos hab]; rfl
          · rw [if_neg (fun hx => hab hx.symm), if_neg hab]; rfl
      | some st =>
        obtain ⟨s, rfl, hs⟩ := hpol a st hp
        simp only [Option.getD_some]
        have h1s : (h1.obj r).getStatus a = some "NEEDS-ACTION" := by
          rw [hobj]; exact Dict.get?_set_self ..
        obtain ⟨l, hl⟩ := setStatus_answer policy fuel h1 r a s hs h1s
        unfold Prog.just Heap.exec Heap.call
        simp only []
        rcases hl with hl | ⟨rfl, hl⟩
        · rw [hl]
          refine ⟨n :: l, Dict.set (Dict.set (h.obj r).pstate a "NEEDS-ACTION") a s, ?_, hget s⟩
          simp only [Heap.exec]
          rw [hobj, ← hh, Heap.put_log, Heap.put_put]
          simp only [List.append_assoc, List.singleton_append]
        · rw [hl]
          refine ⟨[n], Dict.set (h.obj r).pstate a "NEEDS-ACTION", ?_, ?_⟩
          · simp only [Heap.exec]
            rw [← hh]
          · intro b
            rw [Dict.get?_set]
            by_cases hab : b = a
            · rw [if_pos hab.symm, if_pos hab]
            · rw [if_neg (fun hx => hab hx.symm), if_neg hab]; rfl
    obtain ⟨l, d, hset, hd⟩ := hset
    rw [hset]
    simp only [Heap.setRole]
    have hobj : ({ h.put r { h.obj r with pstate := d } with log := h.log ++ l } : Heap).obj r =
      { h.obj r with pstate := d } := Heap.put_obj ..
    rw [hobj]
    simp only [Event.setRole]
    rw [if_neg (by decide), Heap.put_log, Heap.put_put]
    refine ⟨_, rfl, rfl, ?_, ?_, ?_⟩
    · intro r' hr'; exact if_neg hr'
    · show SameButParticipation (h.obj r) ((h.put r _).obj r)
      rw [Heap.put_obj]; rfl
    · intro b
      show Event.getStatus ((h.put r _).obj r) b = _ ∧ Event.getRole ((h.put r _).obj r) b = _
      rw [Heap.put_obj]
      refine ⟨?_, ?_⟩
      · show Dict.get? d b = _
        rw [hd]
        by_cases hab : b = a <;> simp [hab, h0]
      · show Dict.get? (Dict.set (h.obj r).prole a "REQ-PARTICIPANT") b = _
        rw [Dict.get?_set]
        by_cases hab : b = a
        · rw [if_pos hab.symm, if_pos ⟨hab, h0⟩]
        · rw [if_neg (fun hx => hab hx.symm), if_neg (fun hx => hab hx.1)]; rfl
  · rw [if_neg h0]
    refine ⟨h, rfl, rfl, fun _ _ => rfl, rfl, fun b => ?_⟩
    rw [if_neg (fun hx => h0 hx.2), if_neg (fun hx => h0 hx.2)]
    exact ⟨rfl, rfl⟩

/-- C89: with a subscriber that answers invitations with a documented status for those it speaks for, `invite`
returns, everybody newly invited has the answer given, or NEEDS-ACTION, and the role REQ-PARTICIPANT; nobody
else, no other event and nothing else in the event changes.  Missing: answering by removal
(`C89_refusal_counterexample`). -/
theorem C89_answer_partial (policy : AttId → Option (Option String))
    (hpol : ∀ a st, policy a = some st → ∃ s, st = some s ∧ st ∈ statuses) (fuel : Nat) (r : Ref) (l : List AttId)
    (h : Heap) :
    ∃ h', h.call (react (answering policy) (fuel + 2)) (.invite r l) = (h', .ok ()) ∧ h'.events = h.events ∧
      (∀ r', r' ≠ r → h'.obj r' = h.obj r') ∧ SameButParticipation (h.obj r) (h'.obj r) ∧
      ∀ b, (h'.obj r).getStatus b = (if b ∈ l ∧ (h.obj r).getStatus b = none
          then some (((policy b).getD (some "NEEDS-ACTION")).getD "") else (h.obj r).getStatus b) ∧
        (h'.obj r).getRole b = (if b ∈ l ∧ (h.obj r).getStatus b = none then some "REQ-PARTICIPANT"
          else (h.obj r).getRole b) := by
  show ∃ h', h.invite (react (answering policy) (fuel + 2)) r l = (h', .ok ()) ∧ _
  induction l generalizing h with
  | nil => exact ⟨h, rfl, rfl, fun _ _ => rfl, rfl, fun b => by simp⟩
  | cons a rest ih =>
    unfold Heap.invite
    obtain ⟨h1, e1, e2, e3, e4, e5⟩ := inviteOne_answered policy hpol fuel h r a
    rw [e1]
    simp only []
    obtain ⟨h2, f1, f2, f3, f4, f5⟩ := ih h1
    refine ⟨h2, f1, f2.trans e2, fun r' hr' => (f3 r' hr').trans (e3 r' hr'), ?_, ?_⟩
    · have hx := congrArg (fun x : Event => { x with pstate := (h.obj r).pstate, prole := (h.obj r).prole }) f4
      exact hx.trans e4
    · intro b
      obtain ⟨g1, g2⟩ := f5 b
      obtain ⟨k1, k2⟩ := e5 b
      rw [g1, g2, k1, k2]
      simp only [List.mem_cons]
      by_cases hba : b = a
      · subst hba
        by_cases hs : (h.obj r).getStatus b = none
        · simp [hs]
        · simp [hs]
      · simp [hba]

/-- Bob's calendar accepts everything. -/
def Sample.bobAccepts : AttId → Option (Option String) := fun a => if a = "bob" then some (some "ACCEPTED") else none

/-- C89, concrete. -/
example :
    let x := Sample.objects.call (react (answering Sample.bobAccepts) 2) (.invite 0 ["bob", "carol", "bob"])
    x.2 = .ok () ∧ (x.1.obj 0).getStatus "bob" = some "ACCEPTED" ∧ (x.1.obj 0).getStatus "carol" = some "NEEDS-ACTION" ∧
      (x.1.obj 0).getRole "bob" = some "REQ-PARTICIPANT" ∧ x.1.log.length = 4 := by decide +kernel

/-- C89 fails for a subscriber that refuses an invitation by removing the attendee: the role is set only after the
notification, so the removal raises KeyError, and the rest of the list is not invited. -/
theorem C89_refusal_counterexample :
    let x := Sample.objects.call (react (answering (fun a => if a = "bob" then some none else none)) 5)
      (.invite 0 ["bob", "carol"])
    x.2 = raise .KeyError ∧ (x.1.obj 0).getStatus "carol" = none ∧ (x.1.obj 0).getStatus "bob" = none := by
  decide +kernel

/-! ### C91 -/

/-- The kinds of notifications. -/
inductive Kind where
  | created | deleted | modified | participation
  deriving DecidableEq

/-- The kind of a notification. -/
def Note.kind : Note → Kind
  | .created _ => .created
  | .deleted _ => .deleted
  | .modified _ => .modified
  | .participation .. => .participation

/-- The kinds of notifications a call can cause directly. -/
def Call.Causes : Call → Kind → Prop
  | .create .., k => k = .created
  | .delete .., k => k = .deleted
  | .setStatus .., k => k = .participation
  | .invite .., k => k = .participation
  | .import_ .., k => k ≠ .participation
  | _, _ => False

/-- All calls the code can make cause only notifications of these kinds. -/
inductive Prog.Within (P : Kind → Prop) : Prog → Prop
  | done : Within P .done
  | fail (e : PyErr) : Within P (.fail e)
  | call (c : Call) (k : Heap → Res Unit → Prog) (hc : ∀ x, c.Causes x → P x) (hk : ∀ h r, Within P (k h r)) :
      Within P (.call c k)

section
variable {notify notify' : Notifier} {P : Kind → Prop} (hn : ∀ h n, P n.note.kind → notify h n = notify' h n)
include hn

theorem Heap.createEvent_kind (hP : P .created) (h : Heap) (now : Int) (uid : Option Uid) (spec : Spec) :
    h.createEvent notify now uid spec = h.createEvent notify' now uid spec := by
  unfold Heap.createEvent
  simp only []
  cases newEvent (uid.getD (addrspecUniqueId now (h.id ++ "-" ++ toString h.events.length) h.host)) spec with
  | error f => rfl
  | ok e =>
    simp only []
    rw [hn _ ⟨h.next, .created e.uid⟩ hP]

theorem Heap.deleteEvent_kind (hP : P .deleted) (h : Heap) (r : Ref) :
    h.deleteEvent notify r = h.deleteEvent notify' r := by
  unfold Heap.deleteEvent
  simp only []
  split
  · exact hn _ _ hP
  · rfl

theorem Heap.setStatus_kind (hP : P .participation) (h : Heap) (r : Ref) (a : AttId) (st : Option String) :
    h.setStatus notify r a st = h.setStatus notify' r a st := by
  unfold Heap.setStatus
  split
  · rfl
  · simp only []
    split
    · rfl
    · cases (h.obj r).setStatusRaw a st with
      | mk e res =>
        cases res with
        | error f => rfl
        | ok _ => exact hn _ _ hP

theorem Heap.invite_kind (hP : P .participation) (l : List AttId) (h : Heap) (r : Ref) :
    h.invite notify r l = h.invite notify' r l := by
  induction l generalizing h with
  | nil => rfl
  | cons a rest ih =>
    unfold Heap.invite
    have : h.inviteOne notify r a = h.inviteOne notify' r a := by
      unfold Heap.inviteOne
      rw [Heap.setStatus_kind hn hP]
    rw [this]
    cases h.inviteOne notify' r a with
    | mk h' res =>
      cases res with
      | error f => rfl
      | ok _ => exact ih h'

theorem Heap.importOne_kind (hP1 : P .created) (hP2 : P .modified) (h : Heap) (tz : LocalTz) (c : Calendar)
    (src : Source) (known : List Uid) (u : Uid) (v : VEvent) :
    h.importOne notify tz c src known u v = h.importOne notify' tz c src known u v := by
  unfold Heap.importOne
  have h1 : h.importExisting notify tz c src u v = h.importExisting notify' tz c src u v := by
    unfold Heap.importExisting
    cases h.getEvent u with
    | error f => rfl
    | ok r =>
      simp only []
      cases importSpec tz c src v with
      | error f => rfl
      | ok spec =>
        simp only []
        cases spec.willModify (h.obj r) with
        | error f => rfl
        | ok b =>
          cases b with
          | false => rfl
          | true =>
            simp only []
            cases h.edit r spec with
            | mk h' res =>
              cases res with
              | error f => rfl
              | ok _ => exact hn _ _ hP2
  have h2 : h.importNew notify tz c src u v = h.importNew notify' tz c src u v := by
    unfold Heap.importNew
    cases importSpec tz c src v with
    | error f => rfl
    | ok spec => simp only []; rw [Heap.createEvent_kind hn hP1]
  rw [h1, h2]

theorem Heap.import_kind (hP : ∀ k, k ≠ .participation → P k) (h : Heap) (tz : LocalTz) (c : Calendar) (src : Source)
    (vs : List VEvent) (b e : Option Int) (cr : Option Criteria) (sync : Bool) :
    h.import_ notify tz c src vs b e cr sync = h.import_ notify' tz c src vs b e cr sync := by
  have hloop : ∀ (known : List Uid) (vs : List VEvent) (h : Heap),
      Heap.importLoop notify tz c src known h vs = Heap.importLoop notify' tz c src known h vs := by
    intro known vs
    induction vs with
    | nil => exact fun _ => rfl
    | cons v rest ih =>
      intro h
      unfold Heap.importLoop
      cases v.uid with
      | none => rfl
      | some u =>
        simp only []
        rw [Heap.importOne_kind hn (hP _ (by decide)) (hP _ (by decide))]
        cases h.importOne notify' tz c src known u v with
        | mk h' res =>
          cases res with
          | error f => rfl
          | ok _ => simp only []; rw [ih]
  have hrem : ∀ (us : List Uid) (h : Heap), Heap.removeLoop notify h us = Heap.removeLoop notify' h us := by
    intro us
    induction us with
    | nil => exact fun _ => rfl
    | cons u rest ih =>
      intro h
      unfold Heap.removeLoop
      cases h.getEvent u with
      | error f => rfl
      | ok r =>
        simp only []
        rw [Heap.deleteEvent_kind hn (hP _ (by decide))]
        cases h.deleteEvent notify' r with
        | mk h' res =>
          cases res with
          | error f => rfl
          | ok _ => exact ih h'
  unfold Heap.import_
  cases c.getEvents src h.store b e cr with
  | error f => rfl
  | ok events =>
    simp only []
    rw [hloop]
    cases Heap.importLoop notify' tz c src (events.map (·.uid)).dedup h vs with
    | mk h' res =>
      cases res with
      | error f => rfl
      | ok uids => simp only []; rw [hrem]

theorem Heap.call_kind (c : Call) (hc : ∀ x, c.Causes x → P x) (h : Heap) : h.call notify c = h.call notify' c := by
  cases c with
  | create now uid spec => unfold Heap.call; simp only []; rw [Heap.createEvent_kind hn (hc _ rfl)]
  | delete r => exact h.deleteEvent_kind hn (hc _ rfl) r
  | setStatus r a st => exact h.setStatus_kind hn (hc _ rfl) r a st
  | setRole r a role => rfl
  | invite r atts => exact Heap.invite_kind hn (hc _ rfl) atts h r
  | alldayAdjust r => rfl
  | edit r spec => rfl
  | import_ tz c src vs b e cr sync => exact h.import_kind hn hc tz c src vs b e cr sync

theorem Heap.exec_kind (p : Prog) (hp : p.Within P) (h : Heap) : Heap.exec notify h p = Heap.exec notify' h p := by
  induction hp generalizing h with
  | done => rfl
  | fail e => rfl
  | call c k hc hk ih =>
    unfold Heap.exec
    rw [Heap.call_kind hn c hc]
    cases h.call notify' c with
    | mk h' res =>
      cases res with
      | ok _ => exact ih _ _ _
      | error f =>
        cases f with
        | diverge => rfl
        | py e => exact ih _ _ _

end

/-- Subscribers answer notifications of a kind with calls that cause only kinds of lower rank. -/
def Ranked (rank : Kind → Nat) (sub : Heap → HNote → Prog) : Prop :=
  ∀ h n, (sub h n).Within (fun k => rank k < rank n.note.kind)

/-- C91: if subscribers answer notifications of each kind only with calls that cause kinds of lower rank, then
notifications are nested at most as deep as the rank: allowing deeper nesting makes no difference to any client.
Missing: subscribers without such a ranking, where it is false (`C91_toggle_counterexample`). -/
theorem C91_nesting_partial (rank : Kind → Nat) (sub : Heap → HNote → Prog) (hs : Ranked rank sub) (m : Nat)
    (hm : ∀ k, rank k < m) (fuel : Nat) (hf : m ≤ fuel) (client : Prog) (h : Heap) :
    Heap.exec (react sub fuel) h client = Heap.exec (react sub m) h client := by
  have key : ∀ (d : Nat) (f f' : Nat), d < f → d < f' → ∀ (h : Heap) (n : HNote), rank n.note.kind ≤ d →
      react sub f h n = react sub f' h n := by
    intro d
    induction d with
    | zero =>
      intro f f' hf hf' h n hr
      obtain ⟨f, rfl⟩ : ∃ x, f = x + 1 := ⟨f - 1, by omega⟩
      obtain ⟨f', rfl⟩ : ∃ x, f' = x + 1 := ⟨f' - 1, by omega⟩
      unfold react
      simp only []
      refine Heap.exec_kind (P := fun k => rank k < rank n.note.kind) ?_ _ (hs _ _) _
      intro h1 n1 h2
      omega
    | succ d ih =>
      intro f f' hf hf' h n hr
      obtain ⟨f, rfl⟩ : ∃ x, f = x + 1 := ⟨f - 1, by omega⟩
      obtain ⟨f', rfl⟩ : ∃ x, f' = x + 1 := ⟨f' - 1, by omega⟩
      unfold react
      simp only []
      refine Heap.exec_kind (P := fun k => rank k < rank n.note.kind) ?_ _ (hs _ _) _
      intro h1 n1 h2
      exact ih f f' (by omega) (by omega) h1 n1 (by omega)
  have hall : react sub fuel = react sub m := by
    funext h n
    have := hm n.note.kind
    exact key (rank n.note.kind) fuel m (by omega) (by omega) h n (Nat.le_refl _)
  rw [hall]

/-- C91, concrete: a subscriber that invites Bob to everything new, and another that copies; ranks 1 and 0. -/
example : Ranked (fun k => if k = .created then 1 else 0) (fun _ n =>
    match n.note with
    | .created _ => Prog.just (.invite n.ref ["bob"])
    | _ => .done) := by
  intro h n
  obtain ⟨r, note⟩ := n
  cases note with
  | created u =>
    refine .call _ _ ?_ ?_
    · intro x hx
      have : x = .participation := hx
      subst this
      simp [Note.kind]
    · intro h r
      cases r with
      | ok _ => exact .done
      | error f =>
        cases f with
        | py e => exact .fail e
        | diverge => exact .done
  | _ => exact .done

/-- Two subscribers who disagree about Alice: whatever is said, the opposite follows. -/
def Sample.toggle : Heap → HNote → Prog := fun _ n =>
  match n.note with
  | .participation _ a _ (some "ACCEPTED") => .just (.setStatus n.ref a (some "DECLINED"))
  | .participation _ a _ (some "DECLINED") => .just (.setStatus n.ref a (some "ACCEPTED"))
  | _ => .done

/-- C91 fails in general: subscribers that contradict each other never end. -/
theorem C91_toggle_counterexample (fuel : Nat) (h : Heap) (r : Ref) (a : AttId)
    (h0 : (h.obj r).getStatus a ≠ some "DECLINED") :
    (h.call (react Sample.toggle fuel) (.setStatus r a (some "DECLINED"))).2 = .error .diverge := by
  have key : ∀ (fuel : Nat) (h : Heap) (x y : String), (x = "ACCEPTED" ∧ y = "DECLINED" ∨ x = "DECLINED" ∧ y = "ACCEPTED") →
      (h.obj r).getStatus a ≠ some x →
      (h.setStatus (react Sample.toggle fuel) r a (some x)).2 = .error .diverge := by
    intro fuel
    induction fuel with
    | zero =>
      intro h x y hxy hx
      unfold Heap.setStatus
      rw [if_neg (by rcases hxy with ⟨rfl, _⟩ | ⟨rfl, _⟩ <;> decide)]
      simp only []
      rw [if_neg hx]
      rfl
    | succ fuel ih =>
      intro h x y hxy hx
      unfold Heap.setStatus
      rw [if_neg (by rcases hxy with ⟨rfl, _⟩ | ⟨rfl, _⟩ <;> decide)]
      simp only []
      rw [if_neg hx]
      simp only [Event.setStatusRaw]
      unfold react
      simp only []
      generalize hh : ({ h.put r { h.obj r with pstate := Dict.set (h.obj r).pstate a x } with
        log := h.log ++ [⟨r, .participation (h.obj r).uid a ((h.obj r).getStatus a) (some x)⟩] } : Heap) = h1
      have hst : (h1.obj r).getStatus a = some x := by
        rw [← hh]
        show Event.getStatus ((h.put r _).obj r) a = _
        rw [Heap.put_obj]
        exact Dict.get?_set_self ..
      have hans : Sample.toggle h1 ⟨r, .participation (h.obj r).uid a ((h.obj r).getStatus a) (some x)⟩ =
          .just (.setStatus r a (some y)) := by
        rcases hxy with ⟨rfl, rfl⟩ | ⟨rfl, rfl⟩ <;> rfl
      have hd := ih h1 y x (by rcases hxy with ⟨rfl, rfl⟩ | ⟨rfl, rfl⟩ <;> simp)
        (by rw [hst]; rcases hxy with ⟨rfl, rfl⟩ | ⟨rfl, rfl⟩ <;> decide)
      have hh' : ({ h.put r { h.obj r with pstate := Dict.set (h.obj r).pstate a x } with
        log := (h.put r { h.obj r with pstate := Dict.set (h.obj r).pstate a x }).log ++
          [⟨r, .participation (h.obj r).uid a ((h.obj r).getStatus a) (some x)⟩] } : Heap) = h1 := hh
      rw [hh', hans]
      unfold Prog.just Heap.exec Heap.call
      simp only []
      cases hc : h1.setStatus (react Sample.toggle fuel) r a (some y) with
      | mk h2 res =>
        rw [hc] at hd
        simp only [] at hd
        subst hd
        rfl
  exact key fuel h "DECLINED" "ACCEPTED" (Or.inr ⟨rfl, rfl⟩) h0

end CalCore
