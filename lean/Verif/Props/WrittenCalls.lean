import Verif.Props.WrittenHistory
/- Property C148: what a call leaves behind, read with the functions as they are written. -/
namespace CalCore
open Spec Lang

theorem reads_iff (L : Listing) (s : Storage) (u : Uid) (r : M Val) :
    Answers (ofManager L s) "getEvent" [.str u] r ↔
      r = (match s.map u with | some e => .ok (ofEvent L e) | none => .error (.py .KeyError)) := by
  have h := answers_getEvent L s u
  have : toM (ofEvent L) (s.getEvent u) = (match s.map u with | some e => .ok (ofEvent L e) | none => .error (.py .KeyError)) := by
    unfold Storage.getEvent Storage.map
    cases Dict.get? s.events u with
    | none => rfl
    | some e => rfl
  rw [this] at h
  exact ⟨fun hr => Answers.unique hr h, fun hr => hr ▸ h⟩

theorem act_map {fqdn : String} {L : Listing} (hL : L.Faithful) {w : World} (hw : Sound w) {op : Op} (ho : Op.Ordinary op) {m' : Val}
    {out : List Val} {fin : Option Stop} (h : Acts fqdn L (ofManager L w.store) op m' out fin) :
    ∃ s, m' = ofManager L s ∧ s.WF ∧ s.map = (w.store.map.step (w.store.autoId (clock op)) op).1 ∧
      fin = endOf (w.store.map.step (w.store.autoId (clock op)) op).2 := by
  obtain ⟨_, _, _, _, _, hu⟩ := C147_call fqdn L hL w hw op ho
  obtain ⟨h1, _, h3⟩ := hu m' out fin h
  have hs := C32_step w hw.wf op (by cases op <;> trivial)
  rw [← hs]
  exact ⟨_, h1, (hw.step ho).wf, rfl, h3⟩

theorem newEvent_bad (u : Uid) (s : Spec) (x : PyErr) (hx : badEntry s = some x) : newEvent u s = .error (.py x) := by
  obtain ⟨h1, _⟩ := setOnObject_outcome s (blankEvent u)
  unfold newEvent
  generalize s.setOnObject (blankEvent u) = z at h1 ⊢
  obtain ⟨e, r⟩ := z
  simp only at h1
  rw [hx] at h1
  subst h1
  rfl

theorem newEvent_asked {u : Uid} {s : Spec} {e : Event} (h : newEvent u s = .ok e) (a : AttId) :
    e.getStatus a = statusAfter s none a ∧ e.getRole a = roleAfter s none a := by
  have h2 := (setOnObject_outcome s (blankEvent u)).2 a
  unfold newEvent at h
  generalize s.setOnObject (blankEvent u) = z at h h2
  obtain ⟨e', r⟩ := z
  cases r with
  | error f => cases h
  | ok _ =>
    injection h with h
    subst h
    split
    · exact h2
    · exact h2

theorem endOf_none {α : Type} {r : Res α} (h : none = endOf r) : ∃ a, r = .ok a := by
  cases r with
  | ok a => exact ⟨a, rfl⟩
  | error f => cases h

section
variable (fqdn : String) (L : Listing) (hL : L.Faithful) (w : World) (hw : Sound w) (m' : Val) (out : List Val) (fin : Option Stop)

include hL hw

/-- C148: a call that names the event it is about does not change what `getEvent` answers for any other id. -/
theorem C148_frame (op : Op) (ho : Op.Ordinary op) (h : Acts fqdn L (ofManager L w.store) op m' out fin) (u v : Uid)
    (hu : opTarget op = some u) (hv : v ≠ u) (r : M Val) :
    Answers m' "getEvent" [.str v] r ↔ Answers (ofManager L w.store) "getEvent" [.str v] r := by
  obtain ⟨s, rfl, _, hs, _⟩ := act_map hL hw ho h
  have put : ∀ x, (w.store.map.put u x) v = w.store.map v := fun x => by unfold EventMap.put; rw [if_neg hv]
  have on : ∀ f, (w.store.map.on u f).1 v = w.store.map v := fun f => by
    unfold EventMap.on
    split
    · rfl
    · exact put _
  have key : s.map v = w.store.map v := by
    rw [hs]
    cases op with
    | create now uid spec =>
      unfold EventMap.step EventMap.create
      have : uid = some u := hu
      subst this
      simp only [Option.getD_some]
      split
      · exact put _
      · rfl
    | delete uid =>
      injection hu with hu
      subst hu
      unfold EventMap.step
      simp only []
      split
      · rfl
      · exact put _
    | attendeeCreate => cases hu
    | import_ => cases hu
    | setStatus => injection hu with hu; subst hu; exact on _
    | setRole => injection hu with hu; subst hu; exact on _
    | invite => injection hu with hu; subst hu; exact on _
    | alldayAdjust => injection hu with hu; subst hu; exact on _
    | edit => injection hu with hu; subst hu; exact on _
  rw [reads_iff, reads_iff, key]

/-- C148: after an event was created under an id without exception, `getEvent` returns the new event for this id,
in which every attendee has the status and the role that were asked for, and no other has any.  If the list of attendees has a bad entry, its exception is raised and `getEvent` answers as before for every id. -/
theorem C148_created (now : DateTime) (u : Uid) (s : Spec) (hn : dtInRange now = true) (hs : Lasting s.duration)
    (h : Acts fqdn L (ofManager L w.store) (.create now (some u) s) m' out fin) :
    (fin = none → ∃ e, newEvent u s = .ok e ∧ Answers m' "getEvent" [.str u] (.ok (ofEvent L e)) ∧
      ∀ a, Answers (ofEvent L e) "getParticipationStatus" [ofAttendee L a] (.ok (ofOption .str (statusAfter s none a))) ∧
        Answers (ofEvent L e) "getParticipationRole" [ofAttendee L a] (.ok (ofOption .str (roleAfter s none a)))) ∧
    (∀ x, badEntry s = some x → fin = some (.py x) ∧
      ∀ v r, Answers m' "getEvent" [.str v] r ↔ Answers (ofManager L w.store) "getEvent" [.str v] r) := by
  obtain ⟨st, rfl, _, hm, hf⟩ := act_map hL hw (op := .create now (some u) s) ⟨hn, hs⟩ h
  unfold EventMap.step EventMap.create at hm hf
  simp only [Option.getD_some] at hm hf
  cases he : newEvent u s with
  | ok e =>
    rw [he] at hm hf
    refine ⟨fun _ => ⟨e, rfl, ?_, fun a => ?_⟩, fun x hx => ?_⟩
    · rw [reads_iff, hm]
      simp [EventMap.put]
    · obtain ⟨h1, h2⟩ := newEvent_asked he a
      rw [← h1, ← h2]
      exact ⟨answers_of 0 2 (fun W n _ => getStatus_prog W n L e a), answers_of 0 2 (fun W n _ => getRole_prog W n L e a)⟩
    · have := newEvent_bad u s x hx
      rw [he] at this
      cases this
  | error f =>
    rw [he] at hm hf
    refine ⟨fun h0 => ?_, fun x hx => ?_⟩
    · rw [h0] at hf
      cases hf
    · have := newEvent_bad u s x hx
      rw [he] at this
      injection this with this
      subst this
      exact ⟨hf, fun v r => by rw [reads_iff, reads_iff, hm]⟩

/-- C148: after a deletion `getEvent` raises KeyError for the id, whether or not there was an event; the deletion raises nothing if there
was, and KeyError otherwise. -/
theorem C148_deleted (u : Uid) (h : Acts fqdn L (ofManager L w.store) (.delete u) m' out fin) :
    Answers m' "getEvent" [.str u] (.error (.py .KeyError)) ∧
    (fin = none ↔ ∃ ev, Answers (ofManager L w.store) "getEvent" [.str u] (.ok ev)) ∧ (fin = none ∨ fin = some (.py .KeyError)) := by
  obtain ⟨st, rfl, _, hm, hf⟩ := act_map hL hw (op := .delete u) trivial h
  unfold EventMap.step at hm hf
  simp only [] at hm hf
  cases hu : w.store.map u with
  | none =>
    rw [hu] at hf hm
    subst hf
    refine ⟨by rw [reads_iff, hm]; simp [hu], ⟨fun h => (nomatch h), fun ⟨ev, he⟩ => ?_⟩, .inr rfl⟩
    rw [reads_iff, hu] at he
    cases he
  | some e =>
    rw [hu] at hf hm
    subst hf
    exact ⟨by rw [reads_iff, hm]; simp [EventMap.put], ⟨fun _ => ⟨ofEvent L e, by rw [reads_iff, hu]⟩, fun _ => rfl⟩, .inl rfl⟩

omit hL hw in
theorem on_ok {u : Uid} {f : Event → Event × Res Unit} (h : none = endOf (w.store.map.on u f).2) :
    ∃ e, w.store.map u = some e ∧ (w.store.map.on u f).1 u = some (f e).1 ∧ (f e).2 = .ok () := by
  unfold EventMap.on at h ⊢
  cases hu : w.store.map u with
  | none => rw [hu] at h; cases h
  | some e =>
    rw [hu] at h
    obtain ⟨_, h'⟩ := endOf_none h
    exact ⟨e, rfl, by simp [EventMap.put], h'⟩

/-- C148: after a status was set without exception, the event that `getEvent` returns has this status for the attendee; setting it
again changes nothing, sends nothing and raises nothing. -/
theorem C148_status (u : Uid) (a : AttId) (st : Option String)
    (h : Acts fqdn L (ofManager L w.store) (.setStatus u a st) m' out none) :
    (∃ ev, Answers m' "getEvent" [.str u] (.ok ev) ∧ Answers ev "getParticipationStatus" [ofAttendee L a] (.ok (ofOption .str st))) ∧
    ∀ m'' out' fin', Acts fqdn L m' (.setStatus u a st) m'' out' fin' → m'' = m' ∧ out' = [] ∧ fin' = none := by
  obtain ⟨s, rfl, hwf, hm, hf⟩ := act_map hL hw (op := .setStatus u a st) trivial h
  obtain ⟨e, he, he', hr⟩ := on_ok w hf
  have hg := (C41_notify_partial e a st hr).1
  have hst := ((C41_returns_iff e a st).1 hr).1
  have hm' : s.map u = some (e.setStatus a st).1 := by rw [hm]; exact he'
  have hread : Answers (ofManager L s) "getEvent" [.str u] (.ok (ofEvent L (e.setStatus a st).1)) := by rw [reads_iff, hm']
  refine ⟨⟨_, hread, ?_⟩, fun m'' out' fin' h' => ?_⟩
  · have := answers_of (o := ofEvent L (e.setStatus a st).1) (f := "getParticipationStatus") (args := [ofAttendee L a]) 0 2
      (fun W n _ => getStatus_prog W n L (e.setStatus a st).1 a)
    rw [hg] at this
    exact this
  · cases h' with
    | missing hu hx =>
      injection hu with hu
      subst hu
      cases Answers.unique hx hread
    | change hu hx hc hsh =>
      injection hu with hu
      subst hu
      have := Answers.unique hx hread
      injection this with this
      subst this
      have hp : (e.setStatus a st).1.Parts := setStatus_parts (hw.parts u e he) a st
      have hsame : (e.setStatus a st).1.setStatus a st = ((e.setStatus a st).1, [], .ok ()) := by
        generalize (e.setStatus a st).1 = e1 at hg
        unfold Event.setStatus
        rw [if_neg (not_not.2 hst)]
        simp only [hg, ↓reduceIte]
      cases hc with
      | setStatus hd =>
        have h2 := does_setStatus L (e.setStatus a st).1 hp a st
        rw [hsame] at h2
        obtain ⟨k1, k2, k3, _⟩ := hd.unique h2
        injection k1 with k1 _
        subst k1
        rw [share_stored] at hsh
        injection hsh with hsh
        have hk : Dict.get? s.events u = some (e.setStatus a st).1 := hm'
        rw [Dict.set_self hk hwf.nodup] at hsh
        exact ⟨hsh.symm, k2, k3⟩

/-- C148: after a role was set without exception, the event that `getEvent` returns has this role for the attendee, and the status of
before. -/
theorem C148_role (u : Uid) (a : AttId) (r : String) (h : Acts fqdn L (ofManager L w.store) (.setRole u a r) m' out none) :
    ∃ ev ev', Answers (ofManager L w.store) "getEvent" [.str u] (.ok ev) ∧ Answers m' "getEvent" [.str u] (.ok ev') ∧
      Answers ev' "getParticipationRole" [ofAttendee L a] (.ok (.str r)) ∧
      ∀ b x, Answers ev' "getParticipationStatus" [ofAttendee L b] x ↔ Answers ev "getParticipationStatus" [ofAttendee L b] x := by
  obtain ⟨s, rfl, hwf, hm, hf⟩ := act_map hL hw (op := .setRole u a r) trivial h
  obtain ⟨e, he, he', hr⟩ := on_ok w hf
  have hm' : s.map u = some (e.setRole a r).1 := by rw [hm]; exact he'
  have status : ∀ (e : Event) b, Answers (ofEvent L e) "getParticipationStatus" [ofAttendee L b] (.ok (ofOption .str (e.getStatus b))) :=
    fun e b => answers_of 0 2 (fun W n _ => getStatus_prog W n L e b)
  have hrole : (e.setRole a r).1.getRole a = some r ∧ ∀ b, (e.setRole a r).1.getStatus b = e.getStatus b := by
    unfold Event.setRole at hr ⊢
    split at hr
    · cases hr
    · rename_i hx
      rw [if_neg hx]
      exact ⟨Dict.get?_set_self .., fun _ => rfl⟩
  refine ⟨ofEvent L e, ofEvent L (e.setRole a r).1, ?_, ?_, ?_, fun b x => ?_⟩
  · rw [reads_iff, he]
  · rw [reads_iff, hm']
  · have := answers_of (o := ofEvent L (e.setRole a r).1) (f := "getParticipationRole") (args := [ofAttendee L a]) 0 2
      (fun W n _ => getRole_prog W n L (e.setRole a r).1 a)
    rw [hrole.1] at this
    exact this
  · have h1 := status (e.setRole a r).1 b
    have h2 := status e b
    rw [hrole.2 b] at h1
    exact ⟨fun hx => Answers.unique hx h1 ▸ h2, fun hx => Answers.unique hx h2 ▸ h1⟩

/-- C148: `invite` raises nothing for an event that is stored, and afterwards those invited have a status: NEEDS-ACTION if they had
none, and the status of before otherwise. -/
theorem C148_invited (u : Uid) (l : List AttId) (h : Acts fqdn L (ofManager L w.store) (.invite u l) m' out fin)
    (ev : Val) (hev : Answers (ofManager L w.store) "getEvent" [.str u] (.ok ev)) :
    fin = none ∧ ∃ ev', Answers m' "getEvent" [.str u] (.ok ev') ∧
      ∀ a ∈ l, ∀ x, Answers ev "getParticipationStatus" [ofAttendee L a] (.ok x) →
        Answers ev' "getParticipationStatus" [ofAttendee L a] (.ok (match x with | .none => .str "NEEDS-ACTION" | x => x)) := by
  obtain ⟨s, rfl, hwf, hm, hf⟩ := act_map hL hw (op := .invite u l) trivial h
  have status : ∀ (e : Event) b, Answers (ofEvent L e) "getParticipationStatus" [ofAttendee L b] (.ok (ofOption .str (e.getStatus b))) :=
    fun e b => answers_of 0 2 (fun W n _ => getStatus_prog W n L e b)
  rw [reads_iff] at hev
  unfold EventMap.step EventMap.on at hm hf
  simp only [] at hm hf
  cases hu : w.store.map u with
  | none => rw [hu] at hev; cases hev
  | some e =>
    rw [hu] at hev hm hf
    injection hev with hev
    subst hev
    obtain ⟨h1, _, h3, h4⟩ := C40_invite e l
    refine ⟨by rw [hf]; simp only []; rw [h1]; rfl, ofEvent L (e.invite l).1, ?_, fun a ha x hx => ?_⟩
    · rw [reads_iff, hm]
      simp [EventMap.put]
    · have := Answers.unique hx (status e a)
      injection this with this
      have h5 := status (e.invite l).1 a
      cases hs : e.getStatus a with
      | none =>
        rw [hs] at this
        subst this
        rw [(h4 a ha hs).1] at h5
        exact h5
      | some t =>
        rw [hs] at this
        subst this
        rw [(h3 a (.inl (by rw [hs]; exact fun h => nomatch h))).1, hs] at h5
        exact h5

end

/-- A store with one event, "a". -/
def Sample.oneEvent : World := ((freshWorld "s" "h").step (.create Sample.day (some "a") Sample.meeting)).1

theorem Sample.oneEvent_sound : Sound Sample.oneEvent :=
  (fresh_sound "s" "h").step (Sample.busyWeek_ordinary _ (.head _))

/-- The call on the store with one event, as written. -/
theorem Sample.oneEvent_acts (op : Op) (ho : Op.Ordinary op) :
    ∃ m' out, Acts "box" Sample.listing (ofManager Sample.listing Sample.oneEvent.store) op m' out (endOf (Sample.oneEvent.step op).2) := by
  obtain ⟨out, _, _, _, h, _⟩ := C147_call "box" Sample.listing Sample.listing_faithful _ Sample.oneEvent_sound op ho
  exact ⟨_, out, h⟩

/-- C148, concrete: "a" is deleted, and cannot be found any more. -/
example : ∃ m' out, Acts "box" Sample.listing (ofManager Sample.listing Sample.oneEvent.store) (.delete "a") m' out none ∧
    Answers m' "getEvent" [.str "a"] (.error (.py .KeyError)) := by
  obtain ⟨m', out, h⟩ := Sample.oneEvent_acts (.delete "a") trivial
  exact ⟨m', out, h, (C148_deleted _ _ Sample.listing_faithful _ Sample.oneEvent_sound _ _ _ _ h).1⟩

/-- C148, concrete: "b" is created beside "a", with Bob as attendee; "a" can be read as before. -/
example : ∃ m' out ev, Acts "box" Sample.listing (ofManager Sample.listing Sample.oneEvent.store)
      (.create Sample.day (some "b") Sample.meeting) m' out none ∧
    Answers m' "getEvent" [.str "b"] (.ok ev) ∧
    Answers ev "getParticipationStatus" [ofAttendee Sample.listing "bob"] (.ok (.str "NEEDS-ACTION")) ∧
    Answers ev "getParticipationStatus" [ofAttendee Sample.listing "carol"] (.ok .none) ∧
    ∀ r, Answers m' "getEvent" [.str "a"] r ↔ Answers (ofManager Sample.listing Sample.oneEvent.store) "getEvent" [.str "a"] r := by
  have ho : Op.Ordinary (.create Sample.day (some "a") Sample.meeting) := Sample.busyWeek_ordinary _ (.head _)
  obtain ⟨m', out, h⟩ := Sample.oneEvent_acts (.create Sample.day (some "b") Sample.meeting) ho
  have hr : endOf (Sample.oneEvent.step (.create Sample.day (some "b") Sample.meeting)).2 = none := by decide +kernel
  rw [hr] at h
  obtain ⟨e, _, h2, h3⟩ := (C148_created _ _ Sample.listing_faithful _ Sample.oneEvent_sound _ _ _ _ _ _ ho.1 ho.2 h).1 rfl
  exact ⟨m', out, _, h, h2, (h3 "bob").1, (h3 "carol").1, fun r =>
    C148_frame _ _ Sample.listing_faithful _ Sample.oneEvent_sound _ _ _
      (.create Sample.day (some "b") Sample.meeting) ho h "b" "a" rfl (by decide +kernel) r⟩

/-- C148, concrete: Bob accepts; doing it twice does nothing. -/
example : ∃ m' out ev, Acts "box" Sample.listing (ofManager Sample.listing Sample.oneEvent.store)
      (.setStatus "a" "bob" (some "ACCEPTED")) m' out none ∧
    Answers m' "getEvent" [.str "a"] (.ok ev) ∧
    Answers ev "getParticipationStatus" [ofAttendee Sample.listing "bob"] (.ok (.str "ACCEPTED")) ∧
    ∀ m'' out' fin', Acts "box" Sample.listing m' (.setStatus "a" "bob" (some "ACCEPTED")) m'' out' fin' → out' = [] := by
  obtain ⟨m', out, h⟩ := Sample.oneEvent_acts (.setStatus "a" "bob" (some "ACCEPTED")) trivial
  have hr : endOf (Sample.oneEvent.step (.setStatus "a" "bob" (some "ACCEPTED"))).2 = none := by decide +kernel
  rw [hr] at h
  obtain ⟨⟨ev, h1, h2⟩, h3⟩ := C148_status _ _ Sample.listing_faithful _ Sample.oneEvent_sound _ _ _ _ _ h
  exact ⟨m', out, ev, h, h1, h2, fun _ _ _ h' => (h3 _ _ _ h').2.1⟩

/-- C148, concrete: Bob gets the chair. -/
example : ∃ m' out ev, Acts "box" Sample.listing (ofManager Sample.listing Sample.oneEvent.store) (.setRole "a" "bob" "CHAIR") m' out none ∧
    Answers m' "getEvent" [.str "a"] (.ok ev) ∧
    Answers ev "getParticipationRole" [ofAttendee Sample.listing "bob"] (.ok (.str "CHAIR")) := by
  obtain ⟨m', out, h⟩ := Sample.oneEvent_acts (.setRole "a" "bob" "CHAIR") trivial
  have hr : endOf (Sample.oneEvent.step (.setRole "a" "bob" "CHAIR")).2 = none := by decide +kernel
  rw [hr] at h
  obtain ⟨_, ev, _, h1, h2, _⟩ := C148_role _ _ Sample.listing_faithful _ Sample.oneEvent_sound _ _ _ _ _ h
  exact ⟨m', out, ev, h, h1, h2⟩

/-- C148, concrete: Carol is invited; they had no status before. -/
example : ∃ m' out ev, Acts "box" Sample.listing (ofManager Sample.listing Sample.oneEvent.store) (.invite "a" ["carol"]) m' out none ∧
    Answers m' "getEvent" [.str "a"] (.ok ev) ∧
    Answers ev "getParticipationStatus" [ofAttendee Sample.listing "carol"] (.ok (.str "NEEDS-ACTION")) := by
  obtain ⟨m', out, h⟩ := Sample.oneEvent_acts (.invite "a" ["carol"]) trivial
  have hm : ∃ e, Sample.oneEvent.store.map "a" = some e ∧ e.getStatus "carol" = none :=
    ⟨_, rfl, by decide +kernel⟩
  obtain ⟨e, he, hc⟩ := hm
  have hev : Answers (ofManager Sample.listing Sample.oneEvent.store) "getEvent" [.str "a"] (.ok (ofEvent Sample.listing e)) := by
    rw [reads_iff, he]
  obtain ⟨hf, ev, h1, h2⟩ := C148_invited _ _ Sample.listing_faithful _ Sample.oneEvent_sound _ _ _ _ _ h _ hev
  rw [hf] at h
  have hst : Answers (ofEvent Sample.listing e) "getParticipationStatus" [ofAttendee Sample.listing "carol"] (.ok .none) := by
    have := answers_of (o := ofEvent Sample.listing e) (f := "getParticipationStatus") (args := [ofAttendee Sample.listing "carol"]) 0 2
      (fun W n _ => getStatus_prog W n Sample.listing e "carol")
    rw [hc] at this
    exact this
  exact ⟨m', out, ev, h, h1, h2 "carol" (.head _) _ hst⟩

end CalCore
