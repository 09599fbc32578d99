import Verif.Props.Store
import Verif.Lemmas.Import
import Verif.Lemmas.ICalText
/- More on C33 and C61: which calls bring a new uid into the store, and when ids differ. -/
namespace CalCore
open Spec

namespace Spec

/-- The uids under which a call can create an event. -/
def MayCreate (s : Storage) (u : Uid) : Op → Prop
  | .create now uid _ => u = uid.getD (s.autoId now)
  | .attendeeCreate now _ _ => u = s.autoId now
  | .import_ _ _ _ vs _ _ _ _ => ∃ v ∈ vs, v.uid = some u
  | _ => False

/-- The call does not make an id with the second of `now`: if it reads the clock, it does so in another
second, and the ids it is given do not have the shape of an id made in this second. -/
def OtherSecond (id host : String) (now : Int) : Op → Prop
  | .create t none _ => dtInRange t = true ∧ t / 1000000 ≠ now / 1000000
  | .create _ (some u) _ => ∀ n : Nat, u ≠ addrspecUniqueId now (id ++ "-" ++ toString n) host
  | .attendeeCreate t _ _ => dtInRange t = true ∧ t / 1000000 ≠ now / 1000000
  | .import_ _ _ _ vs _ _ _ _ => ∀ v ∈ vs, ∀ n : Nat, v.uid ≠ some (addrspecUniqueId now (id ++ "-" ++ toString n) host)
  | _ => True

end Spec

theorem onEvent_new {w : World} {u k : Uid} {f : Event → Event × List Note × Res Unit}
    (h : Dict.get? w.store.events k = none) : Dict.get? (w.onEvent u f).1.store.events k = none := by
  unfold World.onEvent
  cases hg : w.store.getEvent u with
  | error x => exact h
  | ok e =>
    have hge := Storage.getEvent_ok.1 hg
    simp only []
    rw [Dict.get?_set]
    split
    · rename_i hku; subst hku; rw [h] at hge; cases hge
    · exact h

/-- Events come into the store only by creation and import. -/
theorem step_new {w : World} (hw : w.store.WF) {op : Op} {k : Uid} (h : Dict.get? w.store.events k = none)
    (hn : ¬ MayCreate w.store k op) : Dict.get? (w.step op).1.store.events k = none := by
  have hcreate : ∀ now uid spec, k ≠ uid.getD (w.store.autoId now) →
      Dict.get? (w.createEvent now uid spec).1.store.events k = none := by
    intro now uid spec hk
    rcases w.createEvent_eq now uid spec with ⟨f, _, h'⟩ | ⟨e, hn, hu, h'⟩
    · rw [h']; exact h
    · rw [h']
      simp only []
      rw [Dict.get?_set_ne _ _ (fun hh => hk (by rw [← hu, hh]))]
      exact h
  cases op with
  | create now uid spec => exact hcreate now uid spec hn
  | attendeeCreate now a spec => exact hcreate now none _ hn
  | delete uid =>
    unfold World.step
    simp only []
    cases hg : w.store.getEvent uid with
    | error f => exact h
    | ok e =>
      simp only []
      rcases w.deleteEvent_eq e.uid with ⟨_, h'⟩ | ⟨_, h'⟩
      · rw [h']; exact h
      · rw [h']
        simp only []
        rw [Dict.get?_del, h]; simp
  | setStatus uid a st => exact onEvent_new h
  | setRole uid a role => exact onEvent_new h
  | invite uid atts => exact onEvent_new h
  | alldayAdjust uid => exact onEvent_new h
  | edit uid spec => exact onEvent_new h
  | import_ tz c src vs b e cr sync =>
    have hn' : ∀ v ∈ vs, v.uid ≠ some k := fun v hv hu => hn ⟨v, hv, hu⟩
    have hloop : ∀ known, Dict.get? (World.importLoop tz c src known w vs).1.store.events k = none := by
      intro known; rw [importLoop_other tz c src known vs w hn', h]
    show Dict.get? (w.import_ _ tz c src [] b e cr sync).1.store.events k = none
    rcases import_cases w (fun _ => .ok (some vs)) tz c src [] b e cr sync with ⟨f', _, h'⟩ | ⟨l, hl, h'⟩
    · rw [h']; exact h
    · rcases h' with ⟨f, _, h'⟩ | ⟨_, h'⟩ | ⟨vs', hvs, ⟨f, _, h'⟩ | ⟨uids, _, h'⟩⟩
      · rw [h']; exact h
      · rw [h']; exact h
      · injection hvs with hvs; injection hvs with hvs; subst hvs
        rw [h']; exact hloop _
      · injection hvs with hvs; injection hvs with hvs; subst hvs
        rw [h']
        cases sync with
        | false => exact hloop _
        | true =>
          rw [if_pos rfl, (import_removal w hw tz c src b e cr hl).2 k]
          split
          · rfl
          · exact hloop _

/-- The fields of a timestamp. -/
theorem iso8601_fields (t : Int) (h : dtInRange t = true) : ∃ y m d hh mm ss : Nat,
    (iso8601 t).toList = digits 4 y ++ (digits 2 m ++ (digits 2 d ++ (['T'] ++ (digits 2 hh ++ (digits 2 mm ++ digits 2 ss))))) ∧
    y < 10 ^ 4 ∧ m < 10 ^ 2 ∧ d < 10 ^ 2 ∧ hh < 10 ^ 2 ∧ mm < 10 ^ 2 ∧ ss < 10 ^ 2 ∧
    t / 1000000 = ymd2ord y m d * 86400 + ((hh * 60 + mm) * 60 + ss : Nat) := by
  have hr := (dtInRange_date t).1 h
  have h1 := (dateInRange_iff_year _).1 hr
  have hv := validYmd_date (dtDate t)
  obtain ⟨h2, h2', h3, h3'⟩ := id hv
  have h4 := daysInMonth_pos (dyear (dtDate t)) (dmonth (dtDate t))
  have ht := dtTime_range t
  refine ⟨(dyear (dtDate t)).toNat, (dmonth (dtDate t)).toNat, (dday (dtDate t)).toNat,
    (dtTime t / 3600000000).toNat, (dtTime t / 60000000 % 60).toNat, (dtTime t / 1000000 % 60).toNat,
    ?_, by omega, by omega, by omega, by unfold DAY at ht; omega, by omega, by omega, ?_⟩
  · unfold iso8601 icalTime
    simp only [String.toList_append]
    rw [padNat_digits (k := 4) (by omega) (by omega), padNat_digits (k := 2) (by omega) (by omega),
      padNat_digits (k := 2) (by omega) (by omega), padNat_digits (k := 2) (by omega) (by unfold DAY at ht; omega),
      padNat_digits (k := 2) (by omega) (by omega), padNat_digits (k := 2) (by omega) (by omega)]
    simp
  · rw [Int.toNat_of_nonneg (by omega), Int.toNat_of_nonneg (by omega), Int.toNat_of_nonneg (by omega),
      ymd2ord_date]
    have := combine_dt t
    unfold combine at this
    unfold DAY at *
    omega

/-- The timestamp of an id determines the second. -/
theorem iso8601_second {t t' : Int} (h : dtInRange t = true) (h' : dtInRange t' = true)
    (he : iso8601 t = iso8601 t') : t / 1000000 = t' / 1000000 := by
  obtain ⟨y, m, d, hh, mm, ss, e1, b1, b2, b3, b4, b5, b6, e⟩ := iso8601_fields t h
  obtain ⟨y', m', d', hh', mm', ss', e1', b1', b2', b3', b4', b5', b6', e'⟩ := iso8601_fields t' h'
  rw [he, e1'] at e1
  have len : ∀ k n n', (digits k n).length = (digits k n').length := fun k n n' => by
    rw [digits_length, digits_length]
  have k2 : 0 < 2 := by decide
  obtain ⟨c1, f1⟩ := List.append_inj e1 (len _ _ _)
  obtain ⟨c2, f2⟩ := List.append_inj f1 (len _ _ _)
  obtain ⟨c3, f3⟩ := List.append_inj f2 (len _ _ _)
  obtain ⟨_, f4⟩ := List.append_inj f3 rfl
  obtain ⟨c4, f5⟩ := List.append_inj f4 (len _ _ _)
  obtain ⟨c5, c6⟩ := List.append_inj f5 (len _ _ _)
  clear f1 f2 f3 f4 f5 e1 e1'
  rw [e, e', digits_inj (by decide) b1' b1 c1, digits_inj k2 b2' b2 c2, digits_inj k2 b3' b3 c3,
    digits_inj k2 b4' b4 c4, digits_inj k2 b5' b5 c5, digits_inj k2 b6' b6 c6]

/-- C61: ids made in different seconds differ, whatever the maker and the host. -/
theorem C61_seconds (maker maker' host host' : String) (t t' : Int) (ht : dtInRange t = true)
    (ht' : dtInRange t' = true) (hn : t / 1000000 ≠ t' / 1000000) :
    addrspecUniqueId t maker host ≠ addrspecUniqueId t' maker' host' := by
  intro h
  unfold addrspecUniqueId at h
  have hl := congrArg String.toList h
  simp only [String.toList_append, List.append_assoc] at hl
  have e1 : (iso8601 t).toList.length = (iso8601 t').toList.length := by
    rw [String.length_toList, String.length_toList, iso8601_length ht, iso8601_length ht']
  exact hn (iso8601_second ht ht' (String.toList_inj.1 (List.append_inj hl e1).1))

/-- C33: in every history, with deletions and imports, the id generated next is not in use if no event was
created in the same second before, and no explicit or imported id looks as if made in this second.  Missing:
creations within one second after deletions, for which the statement is false
(`C33_delete_counterexample`). -/
theorem C33_clock_partial (id host : String) (ops : List Op) (now : Int) (hr : dtInRange now = true)
    (hops : ∀ op ∈ ops, OtherSecond id host now op) :
    ((freshWorld id host).run ops).store.hasEvent (((freshWorld id host).run ops).store.autoId now) = false := by
  have key : ∀ (ops : List Op) (w : World), w.store.id = id → w.store.host = host → w.store.WF →
      (∀ n : Nat, Dict.get? w.store.events (addrspecUniqueId now (id ++ "-" ++ toString n) host) = none) →
      (∀ op ∈ ops, OtherSecond id host now op) →
      (w.run ops).store.hasEvent ((w.run ops).store.autoId now) = false := by
    intro ops
    induction ops with
    | nil =>
      intro w h1 h2 _ h _
      show w.store.hasEvent (w.store.autoId now) = false
      rw [Bool.eq_false_iff]
      intro hh
      obtain ⟨e, he⟩ := Storage.hasEvent_iff.1 hh
      unfold Storage.autoId at he
      rw [h1, h2, h] at he; cases he
    | cons op rest ih =>
      intro w h1 h2 hw h ho
      have hk := step_keeps w op
      refine ih _ (hk.1.trans h1) (hk.2.trans h2) ((w.step_many op).wf hw) (fun n => ?_)
        (fun x hx => ho x (List.mem_cons_of_mem _ hx))
      refine step_new hw (h n) ?_
      have hop := ho op (List.mem_cons_self ..)
      cases op with
      | create t uid spec =>
        cases uid with
        | none =>
          intro hc
          exact C61_seconds _ _ _ _ now t hr hop.1 (fun hh => hop.2 hh.symm) hc
        | some u => exact fun hc => hop n hc.symm
      | attendeeCreate t a spec =>
        intro hc
        exact C61_seconds _ _ _ _ now t hr hop.1 (fun hh => hop.2 hh.symm) hc
      | import_ tz c src vs b e cr sync =>
        rintro ⟨v, hv, hu⟩
        exact hop v hv n hu
      | delete => exact fun hc => hc
      | setStatus => exact fun hc => hc
      | setRole => exact fun hc => hc
      | invite => exact fun hc => hc
      | alldayAdjust => exact fun hc => hc
      | edit => exact fun hc => hc
  exact key ops (freshWorld id host) rfl rfl (Storage.WF.mk (by simp [freshWorld, Dict.keys]) (by simp [freshWorld])) (fun n => rfl) hops

/-- C33, a case: two creations, a deletion and, a second later, another creation.  In the same second, the
third event would have replaced the second (`C33_delete_counterexample`). -/
example :
    let ops : List Op :=
      [.create Sample.day none { dtstart := Sample.day, duration := some 0, title := "A" },
       .create Sample.day none { dtstart := Sample.day, duration := some 0, title := "B" },
       .delete "20260302T000000-st-0@host"]
    (∀ op ∈ ops, OtherSecond "st" "host" (Sample.day + 1000000) op) ∧
    (Dict.values ((freshWorld "st" "host").run (ops ++ [.create (Sample.day + 1000000) none
      { dtstart := Sample.day, duration := some 0, title := "C" }])).store.events).map (·.title) = ["B", "C"] := by
  refine ⟨fun op hop => ?_, by decide +kernel⟩
  simp only [List.mem_cons, List.not_mem_nil, or_false] at hop
  rcases hop with rfl | rfl | rfl
  · exact ⟨by decide +kernel, by decide +kernel⟩
  · exact ⟨by decide +kernel, by decide +kernel⟩
  · trivial

end CalCore
