import Verif.Spec.Move
import Verif.Lemmas.Rename
/- Moving commutes with the queries wherever both sides return. -/
namespace CalCore
open Spec

/-- If both return, then the second value is the image of the first. -/
def Follows {α β : Type} (f : α → β) (a : Res α) (b : Res β) : Prop := ∀ x y, a = .ok x → b = .ok y → y = f x

theorem Follows.ok {α β : Type} {f : α → β} {x : α} {y : β} (h : y = f x) : Follows f (.ok x) (.ok y) := by
  intro x' y' hx hy
  cases hx; cases hy; exact h

theorem Follows.raise_left {α β : Type} {f : α → β} {e : Fault} {b : Res β} : Follows f (.error e) b := by
  intro x y hx; cases hx

theorem Follows.raise_right {α β : Type} {f : α → β} {e : Fault} {a : Res α} : Follows f a (.error e) := by
  intro x y _ hy; cases hy

theorem Follows.bind {α β γ δ : Type} {f : α → β} {g : γ → δ} {a : Res α} {b : Res β} {k : α → Res γ} {k' : β → Res δ}
    (h : Follows f a b) (hk : ∀ x, a = .ok x → b = .ok (f x) → Follows g (k x) (k' (f x))) : Follows g (a >>= k) (b >>= k') := by
  cases a with
  | error e => rw [error_bind]; exact Follows.raise_left
  | ok x =>
    cases b with
    | error e => rw [error_bind]; exact Follows.raise_right
    | ok y =>
      rw [ok_bind, ok_bind]
      have := h x y rfl rfl
      subst this
      exact hk x rfl rfl

variable {D : Int}

theorem dtTime_moved (t D : Int) : dtTime (t + D * DAY) = dtTime t := by
  unfold dtTime DAY; omega

theorem combine_moved (d t D : Int) : combine (d + D) t = combine d t + D * DAY := by
  unfold combine DAY; omega

theorem dtAdd_moved (t td : Int) : Follows (· + D * DAY) (dtAdd t td) (dtAdd (t + D * DAY) td) := by
  unfold dtAdd
  split
  · split
    · apply Follows.ok
      show t + D * DAY + td = t + td + D * DAY
      omega
    · exact Follows.raise_right
  · exact Follows.raise_left

theorem dateAdd_moved (d n : Int) : Follows (· + D) (dateAdd d n) (dateAdd (d + D) n) := by
  unfold dateAdd
  split
  · split
    · apply Follows.ok
      show d + D + n = d + n + D
      omega
    · exact Follows.raise_right
  · exact Follows.raise_left

theorem inPeriod_moved (t : Int) (dur : Option Int) (b en : Int) :
    Follows id (inPeriod t dur (some b) (some en))
      (inPeriod (t + D * DAY) dur (some (b + D * DAY)) (some (en + D * DAY))) := by
  unfold inPeriod
  cases dur with
  | none => exact Follows.raise_left
  | some dur =>
    refine (dtAdd_moved t dur).bind fun y _ _ => ?_
    simp only []
    by_cases h : y ≤ b
    · rw [if_pos h, if_pos (by omega)]; exact Follows.ok rfl
    · rw [if_neg h, if_neg (by omega)]
      apply Follows.ok
      simp only [id, decide_eq_decide]
      omega

theorem occAt_moved (e : Event) (t b en : Int) :
    Follows (·.map (moveOcc D)) (e.occAt t b en)
      ((moveEvent D e).occAt (t + D * DAY) (b + D * DAY) (en + D * DAY)) := by
  unfold Event.occAt
  refine (inPeriod_moved (D := D) t e.duration b en).bind fun k _ _ => ?_
  have hd : (moveEvent D e).duration = e.duration := rfl
  rw [hd]
  cases k with
  | false => exact Follows.ok rfl
  | true =>
    cases e.duration with
    | none => exact Follows.raise_left
    | some dur => exact Follows.ok rfl

theorem expandLoop_moved (e : Event) (b en : Int) (l : List Int) :
    Follows (·.map (moveOcc D)) (e.expandLoop b en l)
      ((moveEvent D e).expandLoop (b + D * DAY) (en + D * DAY) (l.map (· + D))) := by
  induction l with
  | nil => exact Follows.ok rfl
  | cons d rest ih =>
    rw [List.map_cons]
    unfold Event.expandLoop
    have ht : combine (d + D) (dtTime (moveEvent D e).dtstart) = combine d (dtTime e.dtstart) + D * DAY := by
      show combine (d + D) (dtTime (e.dtstart + D * DAY)) = _
      rw [dtTime_moved, combine_moved]
    rw [ht]
    refine (occAt_moved e _ b en).bind fun here _ _ => ?_
    refine ih.bind fun more _ _ => ?_
    exact Follows.ok (by simp)

theorem apply_fits {r : Rule} {dt e : Int} (hD : 0 ≤ D) (hi : 1 ≤ r.interval) (hf : FitsRule D r)
    (hr : dtInRange dt = true) (hr' : dtInRange (dt + D * DAY) = true) (he : e + D + 400 ≤ MAXORD) :
    ((movedRule r D).apply (dt + D * DAY) (some (e + D))).1 = (r.apply dt (some e)).1.map (· + D) := by
  obtain ⟨n, rfl⟩ := Int.eq_ofNat_of_zero_le hD
  unfold FitsRule at hf
  have big : (n : Int) % 146097 = 0 → ((movedRule r n).apply (dt + n * DAY) (some (e + n))).1 =
      (r.apply dt (some e)).1.map (· + (n : Int)) := by
    intro h
    obtain ⟨c, rfl⟩ : ∃ c : Nat, n = 146097 * c := ⟨n / 146097, by omega⟩
    have hc : ((146097 * c : Nat) : Int) = 146097 * (c : Int) := Int.natCast_mul 146097 c
    rw [hc] at hr' he ⊢
    exact C93_centuries r hi dt e c hr hr' he
  cases hk : r.kind with
  | no =>
    have h1 : ∀ (q : Rule) (t x : Int), q.kind = .no → (q.apply t (some x)).1 = [dtDate t] := by
      intro q t x hq
      unfold Rule.apply Rule.applyRun
      rw [hq]
    rw [h1 r _ _ hk, h1 (movedRule r _) _ _ hk, dtDate_moved]
    rfl
  | daily => exact C93_daily r (.inl hk) hi dt e n hr hr' (by omega)
  | basic => exact C93_daily r (.inr hk) hi dt e n hr hr' (by omega)
  | weekly wds =>
    rw [hk] at hf
    obtain ⟨c, rfl⟩ : ∃ c : Nat, n = 7 * c := ⟨n / 7, by simp only [] at hf; omega⟩
    have hc : ((7 * c : Nat) : Int) = 7 * (c : Int) := Int.natCast_mul 7 c
    rw [hc] at hr' he ⊢
    exact C93_weekly r hk hi dt e c hr hr' (by omega)
  | yearly => rw [hk] at hf; exact big hf
  | monthly m => rw [hk] at hf; exact big hf

theorem expand_moved {e : Event} {b en : Int} (hD : 0 ≤ D) (hf : FitsEvent D e) (he : dtDate en + D + 400 ≤ MAXORD) :
    Follows (·.map (moveOcc D)) (e.expand b en) ((moveEvent D e).expand (b + D * DAY) (en + D * DAY)) := by
  unfold Event.expand
  have hm : (moveEvent D e).recurrence = e.recurrence.map (movedRule · D) := rfl
  have hs : (moveEvent D e).dtstart = e.dtstart + D * DAY := rfl
  rw [hm, hs]
  cases h : e.recurrence with
  | none => exact occAt_moved e _ b en
  | some r =>
    simp only [Option.map_some]
    obtain ⟨hi, hfr, hr, hr'⟩ := hf r h
    rw [dtDate_moved, apply_fits hD hi hfr hr hr' he]
    refine (expandLoop_moved e b en _).bind fun l _ _ => ?_
    refine Follows.bind (f := id) (fun _ _ _ _ => rfl) fun _ _ _ => ?_
    exact Follows.ok rfl

theorem expandAll_moved {b en : Int} (hD : 0 ≤ D) (he : dtDate en + D + 400 ≤ MAXORD) (l : List Event)
    (hf : ∀ e ∈ l, FitsEvent D e) :
    Follows (·.map (moveOcc D)) (expandAll b en l) (expandAll (b + D * DAY) (en + D * DAY) (l.map (moveEvent D))) := by
  induction l with
  | nil => exact Follows.ok rfl
  | cons e rest ih =>
    rw [List.map_cons]
    unfold expandAll
    refine (expand_moved hD (hf e (by simp)) he).bind fun here _ _ => ?_
    refine (ih fun x hx => hf x (by simp [hx])).bind fun more _ _ => ?_
    exact Follows.ok (by simp)

theorem match_moved (c : Criteria) (e : Event) : c.match (moveEvent D e) = c.match e := by
  unfold Criteria.match
  have h : ∀ l, matchAttendees c.status c.role (moveEvent D e) l = matchAttendees c.status c.role e l := by
    intro l
    induction l with
    | nil => rfl
    | cons a rest ih => unfold matchAttendees; rw [ih]; rfl
  simp only [h]
  rfl

theorem matching_moved (s : Storage) (c : Option Criteria) :
    (moveStore D s).matching c = (s.matching c).map (moveEvent D) := by
  unfold Storage.matching
  have h1 : Dict.values (moveStore D s).events = (Dict.values s.events).map (moveEvent D) := by
    unfold Dict.values moveStore
    simp [List.map_map, Function.comp_def]
  rw [h1, List.filter_map]
  congr 1
  exact List.filter_congr fun e _ => match_moved _ e

theorem mem_matching_events {s : Storage} {c : Option Criteria} {e : Event} (h : e ∈ s.matching c) :
    ∃ u, (u, e) ∈ s.events := by
  unfold Storage.matching Dict.values at h
  obtain ⟨p, hp, rfl⟩ := List.mem_map.1 (List.mem_filter.1 h).1
  exact ⟨p.1, hp⟩

theorem getOccurrences_moved {s : Storage} {b en : Int} (hD : 0 ≤ D) (he : dtDate en + D + 400 ≤ MAXORD)
    (hf : ∀ p ∈ s.events, FitsEvent D p.2) (c : Option Criteria) :
    Follows (·.map (moveOcc D)) (s.getOccurrences (some b) (some en) c)
      ((moveStore D s).getOccurrences (some (b + D * DAY)) (some (en + D * DAY)) c) := by
  unfold Storage.getOccurrences
  rw [matching_moved]
  exact expandAll_moved hD he _ fun e h => (mem_matching_events h).elim fun u hu => hf _ hu

theorem filterInPeriod_moved (b en : Int) (l : List Event) :
    Follows (·.map (moveEvent D)) (filterInPeriod (some b) (some en) l)
      (filterInPeriod (some (b + D * DAY)) (some (en + D * DAY)) (l.map (moveEvent D))) := by
  induction l with
  | nil => exact Follows.ok rfl
  | cons e rest ih =>
    rw [List.map_cons]
    unfold filterInPeriod
    refine (inPeriod_moved (D := D) e.dtstart e.duration b en).bind fun k _ _ => ?_
    refine ih.bind fun more _ _ => ?_
    refine Follows.ok ?_
    cases k <;> simp

theorem getEvents_moved (s : Storage) (b en : Int) (c : Option Criteria) :
    Follows (·.map (moveEvent D)) (s.getEvents (some b) (some en) c)
      ((moveStore D s).getEvents (some (b + D * DAY)) (some (en + D * DAY)) c) := by
  unfold Storage.getEvents
  rw [matching_moved]
  exact filterInPeriod_moved b en _

theorem borderLoop_moved (en y : Int) (fuel : Nat) : ∀ x,
    Follows (·.map (· + D * DAY)) (borderLoop en y fuel x)
      (borderLoop (en + D * DAY) (y + D * DAY) fuel (x + D * DAY)) := by
  induction fuel with
  | zero => intro x; exact Follows.raise_left
  | succ n ih =>
    intro x
    unfold borderLoop
    rw [dtDate_moved, combine_moved]
    refine (dtAdd_moved _ DAY).bind fun x' _ _ => ?_
    by_cases h : x' > en ∨ x' > y
    · rw [if_pos h, if_pos (by omega)]; exact Follows.ok rfl
    · rw [if_neg h, if_neg (by omega)]
      exact (ih x').bind fun more _ _ => Follows.ok rfl

theorem bordersOf_moved (b en x y : Int) (l : List Int) :
    bordersOf (b + D * DAY) (en + D * DAY) (x + D * DAY) (y + D * DAY) (l.map (· + D * DAY)) =
      (bordersOf b en x y l).map (· + D * DAY) := by
  have h1 : (b + D * DAY > x + D * DAY) = (b > x) := by simp
  have h2 : (en + D * DAY < y + D * DAY) = (en < y) := by simp
  unfold bordersOf
  simp only [h1, h2, List.map_append]
  congr 1
  · split
    · rfl
    · cases l with
      | nil => simp
      | cons a r =>
        simp only [List.map_cons, List.head?_cons, reduceCtorEq, false_or, ne_eq, Option.some.injEq, Int.add_left_inj]
        split <;> rfl
  · split <;> rfl

theorem popLoop_moved (b en : Int) (o : Event) (l : List Int) : ∀ e,
    Follows (·.map (moveOcc D)) (popLoop b en o e l)
      (popLoop (b + D * DAY) (en + D * DAY) (moveEvent D o) (e + D * DAY) (l.map (· + D * DAY))) := by
  induction l with
  | nil => intro e; exact Follows.ok rfl
  | cons s rest ih =>
    intro e
    rw [List.map_cons]
    unfold popLoop
    rw [show e + D * DAY - (s + D * DAY) = e - s by omega]
    refine (inPeriod_moved s (some (e - s)) b en).bind fun k _ _ => ?_
    refine (ih s).bind fun more _ _ => ?_
    refine Follows.ok ?_
    cases k <;> rfl

theorem segmentOne_moved (b en : Int) (o : Occurrence Event) :
    Follows (·.map (moveOcc D)) (segmentOne b en o) (segmentOne (b + D * DAY) (en + D * DAY) (moveOcc D o)) := by
  unfold segmentOne
  have e1 : (moveOcc D o).dtstart = o.dtstart + D * DAY := rfl
  have e2 : (moveOcc D o).duration = o.duration := rfl
  have e3 : (moveOcc D o).original = moveEvent D o.original := rfl
  rw [e1, e2, e3]
  have hx : (if o.dtstart + D * DAY < b + D * DAY then b + D * DAY else o.dtstart + D * DAY) =
      (if o.dtstart < b then b else o.dtstart) + D * DAY := by
    split <;> split <;> omega
  simp only [hx]
  generalize (if o.dtstart < b then b else o.dtstart) = x
  refine (dtAdd_moved o.dtstart o.duration).bind fun y _ _ => ?_
  have hf : (en + D * DAY) / DAY - (x + D * DAY) / DAY = en / DAY - x / DAY := by
    unfold DAY; omega
  simp only [hf]
  refine (borderLoop_moved en y _ x).bind fun inner _ _ => ?_
  rw [bordersOf_moved, ← List.map_reverse]
  cases (bordersOf b en o.dtstart y inner).reverse with
  | nil => exact Follows.ok rfl
  | cons e rest => exact popLoop_moved b en _ rest e

theorem segmentOccurrences_moved (b en : Int) (l : List (Occurrence Event)) :
    Follows (·.map (moveOcc D)) (segmentOccurrences b en l)
      (segmentOccurrences (b + D * DAY) (en + D * DAY) (l.map (moveOcc D))) := by
  induction l with
  | nil => exact Follows.ok rfl
  | cons o rest ih =>
    rw [List.map_cons]
    unfold segmentOccurrences
    refine (segmentOne_moved b en o).bind fun here _ _ => ?_
    refine ih.bind fun more _ _ => ?_
    exact Follows.ok (by simp)

theorem getSegmented_moved {s : Storage} {b en : Int} (hD : 0 ≤ D) (he : dtDate en + D + 400 ≤ MAXORD)
    (hf : ∀ p ∈ s.events, FitsEvent D p.2) (c : Option Criteria) :
    Follows (·.map (moveOcc D)) (s.getOccurrencesSegmented (some b) (some en) c)
      ((moveStore D s).getOccurrencesSegmented (some (b + D * DAY)) (some (en + D * DAY)) c) := by
  unfold Storage.getOccurrencesSegmented
  refine (getOccurrences_moved hD he hf c).bind fun l _ _ => ?_
  exact segmentOccurrences_moved b en l

theorem movePeriod_inj {p q : Int × Int} (h : movePeriod D p = movePeriod D q) : p = q := by
  unfold movePeriod at h
  simp only [Prod.mk.injEq, Int.add_left_inj] at h
  exact Prod.ext h.1 h.2

theorem blockLoop_moved (b en tb te : Int) (a : AttId) (l : List (Occurrence Event)) : ∀ acc,
    Follows (·.map (movePeriod D)) (blockLoop b en tb te a l acc)
      (blockLoop (b + D * DAY) (en + D * DAY) tb te a (l.map (moveOcc D)) (acc.map (movePeriod D))) := by
  induction l with
  | nil => intro acc; exact Follows.ok rfl
  | cons o rest ih =>
    intro acc
    rw [List.map_cons]
    unfold blockLoop
    have e1 : (moveOcc D o).dtstart = o.dtstart + D * DAY := rfl
    have e2 : (moveOcc D o).duration = o.duration := rfl
    have e3 : blocks (moveOcc D o).original a = blocks o.original a := rfl
    rw [e1, e2, e3]
    split
    · exact ih acc
    · refine (dtAdd_moved o.dtstart o.duration).bind fun y _ _ => ?_
      simp only [dtDate_moved, combine_moved]
      by_cases h1 : y < b
      · rw [if_pos h1, if_pos (by omega)]; exact ih acc
      · rw [if_neg h1, if_neg (show ¬ y + D * DAY < b + D * DAY by omega)]
        by_cases h2 : o.dtstart ≥ en
        · rw [if_pos h2, if_pos (by omega)]; exact ih acc
        · rw [if_neg h2, if_neg (show ¬ o.dtstart + D * DAY ≥ en + D * DAY by omega)]
          have hx : (if o.dtstart + D * DAY < combine (dtDate o.dtstart) tb + D * DAY then
              combine (dtDate o.dtstart) tb + D * DAY else o.dtstart + D * DAY) =
              (if o.dtstart < combine (dtDate o.dtstart) tb then combine (dtDate o.dtstart) tb
                else o.dtstart) + D * DAY := by
            split <;> split <;> omega
          rw [hx]
          generalize (if o.dtstart < combine (dtDate o.dtstart) tb then combine (dtDate o.dtstart) tb
                else o.dtstart) = x
          rw [dtDate_moved, combine_moved]
          have hy : (if y + D * DAY ≥ combine (dtDate x) te + D * DAY then
              combine (dtDate x) te + D * DAY else y + D * DAY) =
              (if y ≥ combine (dtDate x) te then combine (dtDate x) te else y) + D * DAY := by
            split <;> split <;> omega
          rw [hy]
          generalize (if y ≥ combine (dtDate x) te then combine (dtDate x) te else y) = z
          have hm : ((x + D * DAY, z + D * DAY) ∈ acc.map (movePeriod D)) = ((x, z) ∈ acc) := by
            refine propext ⟨fun h => ?_, fun h => List.mem_map.2 ⟨_, h, rfl⟩⟩
            obtain ⟨p, hp, hq⟩ := List.mem_map.1 h
            have : p = (x, z) := movePeriod_inj (D := D) hq
            rwa [this] at hp
          have := ih (if (x, z) ∈ acc then acc else acc ++ [(x, z)])
          by_cases h3 : (x, z) ∈ acc
          · rw [if_pos h3] at this ⊢
            rw [if_pos (by rw [hm]; exact h3)]
            exact this
          · rw [if_neg h3] at this ⊢
            rw [if_neg (by rw [hm]; exact h3)]
            rw [List.map_append] at this
            exact this

theorem attendeeBlocks_moved {s : Storage} {b en : Int} (tb te : Int) (hD : 0 ≤ D) (he : dtDate en + D + 400 ≤ MAXORD)
    (hf : ∀ p ∈ s.events, FitsEvent D p.2) (l : List AttId) : ∀ acc,
    Follows (·.map (movePeriod D)) (s.attendeeBlocks b en tb te l acc)
      ((moveStore D s).attendeeBlocks (b + D * DAY) (en + D * DAY) tb te l (acc.map (movePeriod D))) := by
  induction l with
  | nil => intro acc; exact Follows.ok rfl
  | cons a rest ih =>
    intro acc
    unfold Storage.attendeeBlocks
    refine (getSegmented_moved hD he hf _).bind fun segs _ _ => ?_
    refine (blockLoop_moved b en tb te a segs acc).bind fun acc' _ _ => ?_
    exact ih acc'

theorem windowLoop_moved (tb te endD : Int) (fuel : Nat) : ∀ d,
    Follows (·.map (movePeriod D)) (windowLoop tb te endD fuel d) (windowLoop tb te (endD + D) fuel (d + D)) := by
  induction fuel with
  | zero => intro d; exact Follows.raise_left
  | succ n ih =>
    intro d
    unfold windowLoop
    by_cases h : d ≤ endD
    · rw [if_pos h, if_pos (by omega)]
      refine (dateAdd_moved d 1).bind fun next _ _ => ?_
      refine (ih next).bind fun more _ _ => ?_
      refine Follows.ok ?_
      simp only [combine_moved, List.map_cons, movePeriod]
    · rw [if_neg h, if_neg (by omega)]
      exact Follows.ok rfl

theorem insertLex_moved (a : Int × Int) (l : List (Int × Int)) :
    insertLex (movePeriod D a) (l.map (movePeriod D)) = (insertLex a l).map (movePeriod D) := by
  induction l with
  | nil => rfl
  | cons c rest ih =>
    have : lexLe (movePeriod D a) (movePeriod D c) = lexLe a c := by
      unfold lexLe movePeriod
      simp
    rw [List.map_cons]
    unfold insertLex
    rw [this, ih]
    split <;> rfl

theorem sortLex_moved (l : List (Int × Int)) : sortLex (l.map (movePeriod D)) = (sortLex l).map (movePeriod D) := by
  induction l with
  | nil => rfl
  | cons a rest ih =>
    rw [List.map_cons]
    unfold sortLex
    rw [ih, insertLex_moved]

theorem overlapLoop_moved (l : List (Int × Int)) : ∀ s e,
    overlapLoop (s + D * DAY) (e + D * DAY) (l.map (movePeriod D)) = (overlapLoop s e l).map (movePeriod D) := by
  induction l with
  | nil => intro s e; rfl
  | cons p rest ih =>
    intro s e
    obtain ⟨x, y⟩ := p
    rw [List.map_cons]
    show overlapLoop _ _ ((x + D * DAY, y + D * DAY) :: _) = _
    unfold overlapLoop
    by_cases h : x ≤ e
    · rw [if_pos h, if_pos (by omega)]
      by_cases h2 : y ≤ e
      · rw [if_pos h2, if_pos (by omega)]; exact ih s e
      · rw [if_neg h2, if_neg (by omega)]; exact ih s y
    · rw [if_neg h, if_neg (by omega), ih]
      rfl

theorem removeOverlaps_moved (l : List (Int × Int)) :
    removeOverlaps (l.map (movePeriod D)) = (removeOverlaps l).map (movePeriod D) := by
  unfold removeOverlaps
  rw [sortLex_moved]
  cases sortLex l with
  | nil => rfl
  | cons p rest => exact overlapLoop_moved rest p.1 p.2

theorem getBlockedPeriods_moved {s : Storage} {b en : Int} (tb te : Int) (hD : 0 ≤ D)
    (he : dtDate en + D + 400 ≤ MAXORD) (hf : ∀ p ∈ s.events, FitsEvent D p.2) (atts : List AttId) :
    Follows (·.map (movePeriod D)) (s.getBlockedPeriods atts b en tb te)
      ((moveStore D s).getBlockedPeriods atts (b + D * DAY) (en + D * DAY) tb te) := by
  unfold Storage.getBlockedPeriods
  refine (attendeeBlocks_moved tb te hD he hf atts []).bind fun blocked _ _ => ?_
  simp only [dtTime_moved, dtDate_moved]
  have key : ∀ endD : Int, Follows (·.map (movePeriod D))
      (windowLoop tb te endD ((endD - dtDate b).toNat + 2) (dtDate b) >>= fun window =>
        Except.ok (removeOverlaps (blocked ++ window)))
      (windowLoop tb te (endD + D) ((endD + D - (dtDate b + D)).toNat + 2) (dtDate b + D) >>= fun window =>
        Except.ok (removeOverlaps (blocked.map (movePeriod D) ++ window))) := by
    intro endD
    rw [show endD + D - (dtDate b + D) = endD - dtDate b by omega]
    refine (windowLoop_moved tb te endD _ _).bind fun w _ _ => ?_
    refine Follows.ok ?_
    rw [← removeOverlaps_moved, List.map_append]
  split
  · exact (dateAdd_moved _ _).bind fun endD _ _ => key endD
  · rw [ok_bind, ok_bind]
    exact key _

theorem freeLoop_moved (tb ends : Int) (md : Option Int) (l : List (Int × Int)) : ∀ last,
    freeLoop tb (ends + D * DAY) md (last + D * DAY) (l.map (movePeriod D)) =
      (freeLoop tb ends md last l).map (movePeriod D) := by
  induction l with
  | nil =>
    intro last
    unfold freeLoop
    simp only [List.map_nil, ne_eq, Int.add_left_inj, Int.add_sub_add_right]
    split <;> rfl
  | cons p rest ih =>
    intro last
    obtain ⟨x, y⟩ := p
    rw [List.map_cons]
    show freeLoop _ _ _ _ ((x + D * DAY, y + D * DAY) :: _) = _
    unfold freeLoop
    simp only [ne_eq, Int.add_left_inj, Int.add_sub_add_right, dtTime_moved, ih]
    split <;> rfl

theorem getFreePeriods_moved {s : Storage} {b en : Int} (tb te : Int) (md : Option Int) (hD : 0 ≤ D)
    (he : dtDate en + D + 400 ≤ MAXORD) (hf : ∀ p ∈ s.events, FitsEvent D p.2) (atts : List AttId) :
    Follows (·.map (movePeriod D)) (s.getFreePeriods atts b en tb te md)
      ((moveStore D s).getFreePeriods atts (b + D * DAY) (en + D * DAY) tb te md) := by
  unfold Storage.getFreePeriods
  refine (getBlockedPeriods_moved tb te hD he hf atts).bind fun blocked _ _ => ?_
  refine Follows.ok ?_
  simp only [dtDate_moved, combine_moved]
  rw [← freeLoop_moved]
  congr 1
  · split <;> split <;> omega
  · split <;> split <;> omega

end CalCore
