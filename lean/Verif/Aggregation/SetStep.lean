import Verif.Aggregation.SetInvariant

/-! # Adding readers keeps the invariant -/

namespace Fimex.AggSet

open Cdm

variable {R D V CS : Type}

theorem mid_union {jd : String} {jv : List String} {l : List (DS R D V CS × String)} {s0 s : State R D V CS} {p : DS R D V CS × String}
    (hg : Good .union jd jv l s0) (hs : s = { s0 with readers := s.readers }) : Mid .union jd l p s s [] := by
  have hcdm : s.cdm = s0.cdm := by rw [hs]
  have hc : s.coords = s0.coords := by rw [hs]
  refine ⟨Later.refl _ _, by rw [hcdm]; exact hg.inv, by rw [hcdm]; exact hg.one, rfl, rfl, by simp, by simp, fun _ => rfl, by simp,
    fun d hd => .inl ⟨d, hd, rfl, rfl, fun _ => rfl⟩, fun hx => by (cases hx), fun hx => absurd rfl hx, fun hx => absurd rfl hx, fun hx => absurd rfl hx,
    fun hx => absurd rfl hx, ?_, fun q _ => .inl rfl, fun hx => by cases hx⟩
  rw [hc, hg.coords]
  simp [coordOf]
  rfl

/-- The variables of a reader that are not joined. -/
theorem good_of_mid {t : Kind} {jd : String} {jv : List String} {l : List (DS R D V CS × String)} {s0 s s2 s' : State R D V CS} {p : DS R D V CS × String}
    {vs : List (Var (Body R D))} (hg : Good t jd jv l s0) (hs : s = { s0 with readers := l.map (·.1) ++ [p.1] }) (hf : Fine p.1)
    (hjd : t = .new → ∀ d ∈ p.1.dims, d.name ≠ jd) (m : Mid t jd l p s s2 vs) (h : unionVars p.1 (s.readers.length - 1) p.1.vars s2 = (s', .ok ())) :
    Good t jd jv (l ++ [p]) s' := by
  have hcdm : s.cdm = s0.cdm := by rw [hs]
  have hjoin : s.join = s0.join := by rw [hs]
  have hprov : s.provider = s0.provider := by rw [hs]
  have hk : s.readers.length - 1 = l.length := by rw [hs]; simp
  rw [hk] at h
  have hasV : ∀ n, hasVariable s2.cdm n = true ↔ hasVariable s.cdm n = true ∨ ∃ v ∈ vs, v.name = n := fun n => by
    rw [hasVariable_iff, hasVariable_iff, m.vars, List.map_append, List.mem_append]
    simp only [List.mem_map]
  have hc2 : Covered s2 := by
    intro n hn
    rcases (hasV n).1 hn with hn | ⟨v, hv, rfl⟩
    · rw [m.provider, hprov]
      rcases hg.covered n (by rw [← hcdm]; exact hn) with h' | h'
      · exact .inl ((m.join n).2 (.inl (by rw [hjoin]; exact h')))
      · exact .inr h'
    · exact .inl (m.new v hv).1
  obtain ⟨ws, k1, k2, k3, k4, k5⟩ := unionVars_grown hf.inv hf.names p.1.vars s2 s' (fun _ hv => hv) m.inv hc2 h
  have hj' : s'.join = s2.join := by rw [k3]
  have hone : OneUnlimited s'.cdm := k2.one m.one
  have L2 : Later t s2.cdm s'.cdm := k2.later t
  have L : Later t s.cdm s'.cdm := m.later.trans L2
  have hul : t ≠ .union → getUnlimitedDim s'.cdm = getUnlimitedDim s2.cdm := fun ht => by
    cases hu : getUnlimitedDim s2.cdm with
    | some u =>
      obtain ⟨ds, e, -⟩ := k2.dims
      unfold getUnlimitedDim at hu ⊢
      rw [e, List.find?_append, hu]
      rfl
    | none =>
      have hno := no_unl hu
      by_contra hx
      obtain ⟨d, hd, hdu⟩ := getUnlimitedDim_isSome.1 (Option.isSome_iff_ne_none.2 hx)
      obtain ⟨ds, e, he⟩ := k2.dims
      rw [e] at hd
      rcases List.mem_append.1 hd with hd | hd
      · rw [hno d hd] at hdu; cases hdu
      · obtain ⟨d', a, b⟩ := m.hasU ht ⟨d, he d hd, hdu⟩
        rw [hno d' a] at b; cases b
  -- an unlimited dimension that `p.1` and the aggregation have
  have hboth : t ≠ .union → ∀ w ∈ p.1.vars, w.name ∉ s2.join → s2.provider.lookup w.name = none → ∀ n ∈ w.shape, ∀ d ∈ s'.cdm.dims, ∀ e ∈ p.1.dims,
      d.name = n → e.name = n → d.unlimited = true → e.unlimited = true →
      ∃ k ∈ w.shape, ∃ d ∈ s'.cdm.dims, ∃ e ∈ p.1.dims, d.name = k ∧ e.name = k ∧ d.unlimited = false ∧ d.length ≠ e.length := by
    intro ht w hw hwj hwp n hn d hd e he hdn hen hdu heu
    have hd2 : d ∈ s2.cdm.dims := k2.unl (m.hasU ht ⟨e, he, heu⟩) d hd hdu
    cases t with
    | union => exact absurd rfl ht
    | new =>
      have hu := m.uname ht
      obtain ⟨u, hu1, hu2⟩ := Option.map_eq_some_iff.1 (show (getUnlimitedDim s2.cdm).map (·.name) = some jd from hu)
      have : d = u := m.one d hd2 u (unl_of hu1).1 hdu (unl_of hu1).2
      exact absurd (by rw [hen, ← hdn, this, hu2]) (hjd rfl e he)
    | existing =>
      rcases m.rejected rfl w hw n hn ⟨d, hd2, hdn, hdu⟩ ⟨e, he, hen, heu⟩ with h' | ⟨k, hk, d', q1, e', q2, q3, q4, q5, q6⟩
      · rcases hc2 w.name h' with h'' | h''
        · exact absurd h'' hwj
        · rw [hwp] at h''; cases h''
      · exact ⟨k, hk, L2.clash1 q1 q2 q3 q4 q5 q6⟩
  refine ⟨?_, k2.inv, hone, k4, fun ht => ?_, fun ht => ?_, fun ht q hq w hw hwj => ?_, fun ht n hn => ?_, fun n k hk => ?_, fun v hv hvj => ?_, fun q hq w hw => ?_, fun d hd => ?_,
    fun ht u hu => ?_, fun ht => ?_, fun ht => ?_, ?_, ?_⟩
  · rw [k3]
    simp only
    rw [m.readers, hs]
    simp
  · rw [hj', m.joinSame (by rw [ht]; simp), hjoin, hg.joinNew ht]
  · rw [hj', m.joinSame (by rw [ht]; simp), hjoin, hg.joinUnion ht]
  · rw [hj'] at hwj
    rcases List.mem_append.1 hq with hq | hq
    · rw [m.joinSame (by rw [ht]; simp), hjoin] at hwj
      exact L.has (by rw [hcdm]; exact hg.named ht q hq w hw hwj)
    · rw [List.mem_singleton.1 hq] at hw
      exact L2.has (m.news ht w hw hwj)
  · rw [hj', m.join] at hn
    rcases hn with hn | ⟨-, v, hv, rfl⟩
    · exact L.has (by rw [hcdm]; exact hg.joinHas ht n (by rw [← hjoin]; exact hn))
    · exact L2.has ((hasV _).2 (.inr ⟨v, hv, rfl⟩))
  · -- provider
    rw [k3, lookup_append, m.provider, hprov] at hk
    cases hl0 : s0.provider.lookup n with
    | some k0 =>
      rw [hl0] at hk
      have : k0 = k := by simpa using hk
      subst this
      obtain ⟨a1, q, a2, v, a3, a4, a5, a6, a7⟩ := hg.prov n k0 hl0
      refine ⟨?_, q, ?_, v, a3, a4, L.mem (by rw [hcdm]; exact a5), ?_, fun mm hm => ?_⟩
      · rw [hj', m.join]
        rintro (h' | ⟨-, w, hw, hwn⟩)
        · exact a1 (by rw [← hjoin]; exact h')
        · have hn := m.inv.vars
          rw [m.vars, List.map_append, List.nodup_append] at hn
          refine hn.2.2 v.name (List.mem_map_of_mem (by rw [hcdm]; exact a5)) w.name (List.mem_map_of_mem hw) (by rw [a4, hwn])
      · rw [List.getElem?_append_left (by exact (List.getElem?_eq_some_iff.1 a2).1)]
        exact a2
      · rw [L.attrs n (by rw [hcdm, hasVariable_iff, ← a4]; exact List.mem_map_of_mem a5), hcdm, a6]
      · obtain ⟨d, hd, e, he, b1, b2, b3, b4⟩ := a7 mm hm
        obtain ⟨d', c1, c2, c3, c4⟩ := L.dims d (by rw [hcdm]; exact hd)
        refine ⟨d', c1, e, he, c2.trans b1, b2, ?_, fun ht => c3.trans (b4 ht)⟩
        rw [c4, b3]
        intro hx
        by_contra ht
        rw [b4 ht] at hx
        cases hx
    | none =>
      rw [hl0, Option.none_or, lookup_map_const] at hk
      split at hk
      · rename_i hn
        cases hk
        obtain ⟨w, hw, rfl⟩ := List.mem_map.1 hn
        obtain ⟨a1, a2, a3, a4⟩ := k1 w hw
        refine ⟨by rw [hj']; exact a2, p, by simp, w, a1, rfl, by rw [k2.vars]; exact List.mem_append_right _ hw, k2.own w hw, fun mm hm => ?_⟩
        obtain ⟨d, hd, hd', hdn⟩ := a4 mm hm
        refine ⟨d, hd, d, hd', hdn, hdn, rfl, fun ht => ?_⟩
        by_contra hx
        have hx' : d.unlimited = true := by simpa using hx
        obtain ⟨k, hk, d1, q1, e1, q2, q3, q4, q5, q6⟩ := hboth ht w a1 a2 a3 mm hm d hd d hd' hdn hdn hx' hx'
        obtain ⟨d2, r1, r2, r3⟩ := a4 k hk
        have e1' : d2 = d1 := Inv.dim_eq k2.inv r1 q1 (by rw [r3, q3])
        have e2' : d2 = e1 := Inv.dim_eq hf.inv r2 q2 (by rw [r3, q4])
        exact q6 (by rw [← e1', ← e2'])
      · cases hk
  · -- joined variables
    rw [hj'] at hvj
    rw [k2.vars, m.vars] at hv
    rcases List.mem_append.1 hv with hv | hv
    · rcases List.mem_append.1 hv with hv | hv
      · have hvs : hasVariable s.cdm v.name = true := by rw [hasVariable_iff]; exact List.mem_map_of_mem hv
        have hj0 : v.name ∈ s0.join := by
          rcases (m.join _).1 hvj with h' | ⟨-, w, hw, hwn⟩
          · rw [← hjoin]; exact h'
          · have hn := m.inv.vars
            rw [m.vars, List.map_append, List.nodup_append] at hn
            exact absurd hwn.symm (hn.2.2 v.name (List.mem_map_of_mem hv) w.name (List.mem_map_of_mem hw))
        obtain ⟨q, hq, w, hw, hwn, a1, a2⟩ := hg.joins v (by rw [← hcdm]; exact hv) hj0
        exact ⟨q, List.mem_append_left _ hq, w, hw, hwn, by rw [L.attrs _ hvs, hcdm, a1], L.joinedAs (by rw [hcdm]; exact a2)⟩
      · obtain ⟨-, w, hw, hwn, a1, a2⟩ := m.new v hv
        exact ⟨p, by simp, w, hw, hwn, by rw [L2.attrs _ ((hasV _).2 (.inr ⟨v, hv, rfl⟩)), a1], L2.joinedAs a2⟩
    · exact absurd hvj (k1 v hv).2.1
  · -- all variables
    rcases List.mem_append.1 hq with hq | hq
    · rcases hg.complete q hq w hw with h' | ⟨n, hn, h'⟩
      · exact .inl (L.has (by rw [hcdm]; exact h'))
      · exact .inr ⟨n, hn, L.clash (by rw [hcdm]; exact h')⟩
    · rw [List.mem_singleton.1 hq] at hw ⊢
      have provHas : ∀ n, (s'.provider.lookup n).isSome = true → hasVariable s'.cdm n = true := fun n hn => by
        rw [k3] at hn
        simp only at hn
        rw [lookup_append, m.provider, hprov, Option.isSome_or, Bool.or_eq_true, lookup_map_const] at hn
        rcases hn with hn | hn
        · obtain ⟨k0, hk0⟩ := Option.isSome_iff_exists.1 hn
          obtain ⟨-, q, -, v, -, a4, a5, -⟩ := hg.prov n k0 hk0
          refine L.has ?_
          rw [hasVariable_iff, hcdm, ← a4]
          exact List.mem_map_of_mem a5
        · split at hn
          · rename_i hn'
            rw [hasVariable_iff, k2.vars, List.map_append]
            exact List.mem_append_right _ hn'
          · cases hn
      by_cases hwj : w.name ∈ s2.join
      · refine .inl ?_
        cases t with
        | new => exact L2.has (m.news rfl w hw hwj)
        | union => rw [m.joinSame (by simp), hjoin, hg.joinUnion rfl] at hwj; cases hwj
        | existing =>
          rcases (m.join _).1 hwj with h' | ⟨-, v, hv, hvn⟩
          · exact L.has (by rw [hcdm]; exact hg.joinHas rfl _ (by rw [← hjoin]; exact h'))
          · exact L2.has ((hasV _).2 (.inr ⟨v, hv, hvn⟩))
      · rcases k5 w hw with h' | h' | ⟨n, hn, e, he, hen, h'⟩
        · exact absurd h' hwj
        · exact .inl (provHas _ h')
        · rcases h' with ⟨d, hd, hdn, h'⟩ | h'
          · by_cases hu : d.unlimited = e.unlimited
            · have hl : d.length ≠ e.length := h'.resolve_left fun hx => hx hu
              by_cases ht : d.unlimited = true → t = .union
              · exact .inr ⟨n, hn, e, he, hen, .inl ⟨d, hd, hdn, .inr ⟨hl, ht⟩⟩⟩
              · push Not at ht
                cases hp : s2.provider.lookup w.name with
                | some k0 =>
                  refine .inl (provHas _ ?_)
                  rw [k3, lookup_append, Option.isSome_or, hp]
                  rfl
                | none =>
                  obtain ⟨k, hk, d1, q1, e1, q2, q3, q4, q5, q6⟩ := hboth ht.2 w hw hwj hp n hn d hd e he hdn hen ht.1 (by rw [← hu]; exact ht.1)
                  exact .inr ⟨k, hk, e1, q2, q4, .inl ⟨d1, q1, q3, .inr ⟨q6, fun hx => by rw [q5] at hx; cases hx⟩⟩⟩
            · exact .inr ⟨n, hn, e, he, hen, .inl ⟨d, hd, hdn, .inl hu⟩⟩
          · exact .inr ⟨n, hn, e, he, hen, .inr h'⟩
  · -- dimensions
    obtain ⟨ds, e, he⟩ := k2.dims
    rw [e] at hd
    rcases List.mem_append.1 hd with hd | hd
    · rcases m.dims d hd with ⟨d0, a1, a2, a3, a4⟩ | ⟨e0, a1, a2, a3⟩
      · rcases hg.dims d0 (by rw [← hcdm]; exact a1) with h' | ⟨q, hq, e0, b1, b2, b3⟩
        · exact .inl ⟨h'.1, by rw [← a2]; exact h'.2⟩
        · exact .inr ⟨q, List.mem_append_left _ hq, e0, b1, b2.trans a2, fun hx => (b3 (by rw [a3]; exact hx)).trans (a4 hx)⟩
      · exact .inr ⟨p, by simp, e0, a1, a2, a3⟩
    · exact .inr ⟨p, by simp, d, he d hd, rfl, fun _ => rfl⟩
  · rw [hul ht] at hu
    rw [k3]
    exact m.ulen ht u hu
  · rw [hul ht]
    exact m.uname ht
  · rw [k3]
    exact m.ends ht
  · rw [k3]
    exact m.coords
  · exact m.counts

/-- A further reader. -/
theorem good_addOther {t : Kind} {jd : String} {jv : List String} {l : List (DS R D V CS × String)} {s0 s' : State R D V CS} {p : DS R D V CS × String}
    (hl : l ≠ []) (hg : Good t jd jv l s0) (hf : Fine p.1) (hjd : t = .new → ∀ d ∈ p.1.dims, d.name ≠ jd) (h : addReader t jd p s0 = (s', .ok ())) :
    Good t jd jv (l ++ [p]) s' := by
  unfold addReader at h
  have hlen : ¬(s0.readers ++ [p.1]).length = 1 := by
    rw [hg.readers]
    cases l with
    | nil => exact absurd rfl hl
    | cons a l => simp
  simp only at h
  rw [if_neg hlen] at h
  obtain ⟨s2, h1, h2⟩ := andThen_ok h
  have hs : ({ s0 with readers := s0.readers ++ [p.1] } : State R D V CS) = { s0 with readers := l.map (·.1) ++ [p.1] } := by rw [hg.readers]
  cases t with
  | existing =>
    obtain ⟨vs, m⟩ := mid_existing hg rfl hf h1
    exact good_of_mid hg hs hf hjd m h2
  | new =>
    obtain ⟨vs, m⟩ := mid_new hg rfl hf h1
    exact good_of_mid hg hs hf hjd m h2
  | union =>
    simp only [Prod.mk.injEq, and_true] at h1
    subst h1
    exact good_of_mid hg hs hf hjd (mid_union hg rfl) h2

/-! ## The first reader -/

theorem good_first {t : Kind} {jd : String} {jv : List String} {p : DS R D V CS × String} {s : State R D V CS} {f : Var (Body R D) → Var (Body R D)}
    (hfn : ∀ v, (f v).name = v.name) (hi : Inv s.cdm) (ho : OneUnlimited s.cdm) (hv : s.cdm.vars = p.1.vars.map f)
    (ha : ∀ n, getAttributes s.cdm n = getAttributes p.1 n) (hrd : s.readers = [p.1]) (hp : s.provider = []) (hjn : t = .new → s.join = jv)
    (hju : t = .union → s.join = []) (hje : t = .existing → ∀ n ∈ s.join, hasVariable p.1 n = true)
    (hnj : ∀ v ∈ p.1.vars, v.name ∉ s.join → f v = v ∧
      ∀ m ∈ v.shape, ∃ d ∈ s.cdm.dims, ∃ e ∈ p.1.dims, d.name = m ∧ e.name = m ∧ d.length = e.length ∧ (t ≠ .union → d.unlimited = false))
    (hj : ∀ v ∈ p.1.vars, v.name ∈ s.join → JoinedAs t jd s.cdm p.1 v (f v))
    (hd : ∀ d ∈ s.cdm.dims, (t = .new ∧ d.name = jd) ∨ ∃ e ∈ p.1.dims, e.name = d.name ∧ ((d.unlimited = true → t = .union) → e.length = d.length))
    (hul : t ≠ .union → ∀ u, getUnlimitedDim s.cdm = some u → u.length = lastEnd s.ends)
    (hun : t ≠ .union → (getUnlimitedDim s.cdm).map (·.name) = udName t jd [p])
    (he : t ≠ .union → s.ends = [part t (udName t jd [p]) p.1]) (hc : s.coords = coordOf t (udName t jd [p]) p)
    (hct : coordOf t (udName t jd [p]) p = [] ∨ (coordOf t (udName t jd [p]) p).length = part t (udName t jd [p]) p.1) {s' : State R D V CS}
    (h : firstProviders (s, .ok ()) = (s', .ok ())) : Good t jd jv [p] s' := by
  simp only [firstProviders, Prod.mk.injEq, and_true] at h
  have hnames : s.cdm.vars.map (·.name) = p.1.vars.map (·.name) := by
    rw [hv, List.map_map]
    exact List.map_congr_left fun v _ => hfn v
  have hlk : ∀ n, s'.provider.lookup n = if n ∈ (s.cdm.vars.filter fun v => !s.join.contains v.name).map (·.name) then some 0 else none := fun n => by
    rw [← h, ← lookup_map_const, hp]
    rfl
  have hmem : ∀ n, n ∈ (s.cdm.vars.filter fun v => !s.join.contains v.name).map (·.name) ↔ hasVariable s.cdm n = true ∧ n ∉ s.join := fun n => by
    rw [hasVariable_iff, List.mem_map, List.mem_map]
    constructor
    · rintro ⟨v, hv, rfl⟩
      rw [List.mem_filter] at hv
      exact ⟨⟨v, hv.1, rfl⟩, by simpa using hv.2⟩
    · rintro ⟨⟨v, hv, rfl⟩, hn⟩
      exact ⟨v, by rw [List.mem_filter]; exact ⟨hv, by simpa using hn⟩, rfl⟩
  have hcd : s'.cdm = s.cdm := by rw [← h]
  have hjj : s'.join = s.join := by rw [← h]
  have hee : s'.ends = s.ends := by rw [← h]
  have hcc : s'.coords = s.coords := by rw [← h]
  refine ⟨by rw [← h]; simpa using hrd, by rw [hcd]; exact hi, by rw [hcd]; exact ho, fun n hn => ?_, fun ht => by rw [hjj]; exact hjn ht,
    fun ht => by rw [hjj]; exact hju ht, fun _ q hq w hw _ => ?_, fun ht n hn => ?_, fun n k hk => ?_, fun v hvm hvj => ?_, fun q hq w hw => ?_, fun d hdm => ?_,
    fun ht u hu => ?_, fun ht => by rw [hcd]; exact hun ht, fun ht => ?_, ?_, ?_⟩
  · rw [hjj, hlk]
    by_cases hx : n ∈ s.join
    · exact .inl hx
    · rw [if_pos ((hmem n).2 ⟨by rw [← hcd]; exact hn, hx⟩)]
      exact .inr rfl
  · rw [List.mem_singleton.1 hq] at hw
    rw [hcd, hasVariable_iff, hnames]
    exact List.mem_map_of_mem hw
  · rw [hcd, hasVariable_iff, hnames, ← hasVariable_iff]
    exact hje ht n (by rw [← hjj]; exact hn)
  · rw [hlk] at hk
    split at hk
    · rename_i hn
      cases hk
      obtain ⟨hn1, hn2⟩ := (hmem n).1 hn
      rw [hasVariable_iff, hnames, List.mem_map] at hn1
      obtain ⟨v, hv1, rfl⟩ := hn1
      obtain ⟨a1, a2⟩ := hnj v hv1 hn2
      refine ⟨by rw [hjj]; exact hn2, p, rfl, v, hv1, rfl, ?_, by rw [hcd]; exact ha _, by rw [hcd]; exact a2⟩
      rw [hcd, hv, ← a1]
      exact List.mem_map_of_mem hv1
    · cases hk
  · rw [hcd] at hvm
    rw [hv] at hvm
    obtain ⟨w, hw, rfl⟩ := List.mem_map.1 hvm
    refine ⟨p, by simp, w, hw, (hfn w).symm, by rw [hcd]; exact ha _, ?_⟩
    rw [hcd]
    exact hj w hw (by rw [← hfn, ← hjj]; exact hvj)
  · rw [List.mem_singleton.1 hq] at hw
    left
    rw [hcd, hasVariable_iff, hnames]
    exact List.mem_map_of_mem hw
  · rw [hcd] at hdm
    rcases hd d hdm with h' | h'
    · exact .inl h'
    · exact .inr ⟨p, by simp, h'⟩
  · rw [hcd] at hu
    rw [hee]
    exact hul ht u hu
  · rw [hee, he ht]
    simp [Aggregation.endsOf]
  · rw [hcc, hc]
    simp
  · intro q hq
    rw [List.mem_singleton.1 hq]
    exact hct

theorem limit_spec : ∀ {l : List Dim}, (∀ d ∈ l, ∀ e ∈ l, d.unlimited = true → e.unlimited = true → d = e) → (l.map (·.name)).Nodup →
    limit l = l.map fun d => { d with unlimited := false }
  | [], _, _ => rfl
  | d :: l, h, hn => by
    unfold limit
    rw [List.map_cons, List.nodup_cons] at hn
    split
    · rename_i hd
      rw [List.map_cons]
      congr 1
      conv => lhs; rw [← List.map_id l]
      apply List.map_congr_left
      intro e he
      have : e.unlimited = false := by
        by_contra hx
        have := h d (by simp) e (List.mem_cons_of_mem _ he) hd (by simpa using hx)
        exact hn.1 (this ▸ List.mem_map_of_mem he)
      cases e
      simp only at this
      rw [this]
      rfl
    · rename_i hd
      rw [List.map_cons, limit_spec (fun a ha b hb => h a (List.mem_cons_of_mem _ ha) b (List.mem_cons_of_mem _ hb)) hn.2]
      congr 1
      cases d
      simp only [Bool.not_eq_true] at hd
      rw [hd]

theorem inv_map {c : DS R D V CS} (h : Inv c) {f : Var (Body R D) → Var (Body R D)} (hf : ∀ v, (f v).name = v.name) :
    Inv { c with vars := c.vars.map f } := by
  have hn : (c.vars.map f).map (·.name) = c.vars.map (·.name) := by
    rw [List.map_map]
    exact List.map_congr_left fun v _ => hf v
  refine ⟨by rw [hn]; exact h.vars, h.dims, h.attrNames, fun n hl => ?_⟩
  rcases h.owners n hl with h' | h'
  · exact .inl h'
  · right
    rw [hasVariable_iff] at h' ⊢
    rw [hn]
    exact h'

theorem firstProviders_ok {q : State R D V CS × Res Unit} {s' : State R D V CS} (h : firstProviders q = (s', .ok ())) :
    ∃ s, q = (s, .ok ()) ∧ firstProviders (s, .ok ()) = (s', .ok ()) := by
  obtain ⟨s, r⟩ := q
  cases r with
  | ok a => exact ⟨s, rfl, h⟩
  | throws => cases h
  | ub => cases h

theorem good_addFirst {t : Kind} {jd : String} {jv : List String} {c0 : DS R D V CS} {s' : State R D V CS} {p : DS R D V CS × String} (hf : Fine p.1)
    (hjd : t = .new → ∀ d ∈ p.1.dims, d.name ≠ jd) (h : addReader t jd p (start c0 t jv) = (s', .ok ())) : Good t jd jv [p] s' := by
  unfold addReader start at h
  simp only [List.nil_append, List.length_singleton, if_true] at h
  unfold addFirst at h
  have hdim : ∀ m, ∀ v ∈ p.1.vars, m ∈ v.shape → ∃ e ∈ p.1.dims, e.name = m := fun m v hv hm => hf.shapes v hv m hm
  cases t with
  | union =>
    simp only at h
    refine good_first (f := id) (fun _ => rfl) hf.inv hf.one (by simp) (fun _ => rfl) rfl rfl (fun hx => by cases hx) (fun _ => rfl)
      (fun hx => by cases hx) (fun v hv _ => ⟨rfl, fun m hm => ?_⟩) (fun v hv hx => by cases hx) (fun d hd => .inr ⟨d, hd, rfl, fun _ => rfl⟩)
      (fun hx => absurd rfl hx) (fun hx => absurd rfl hx) (fun hx => absurd rfl hx) rfl (.inl rfl) h
    obtain ⟨e, he, hen⟩ := hdim m v hv hm
    exact ⟨e, he, e, he, hen, hen, rfl, fun hx => absurd rfl hx⟩
  | existing =>
    simp only at h
    cases hu : getUnlimitedDim p.1 with
    | none =>
      rw [hu] at h
      obtain ⟨s1, h1, h2⟩ := firstProviders_ok h
      obtain ⟨e1, -⟩ := extendBy_ok h1
      have hset : setUnlimited (lastEnd [] + 0) p.1 = p.1 := by unfold setUnlimited; rw [hu]
      have hc1 : s1.cdm = p.1 := by rw [e1]; exact hset
      have hud : udName .existing jd [p] = none := by simp [udName, hu]
      refine good_first (f := id) (fun _ => rfl) (by rw [hc1]; exact hf.inv) (by rw [hc1]; exact hf.one) (by rw [hc1]; simp) (fun _ => by rw [hc1])
        (by rw [e1]) (by rw [e1]) (fun hx => by cases hx) (fun hx => by cases hx) (fun _ n hn => by rw [e1] at hn; cases hn)
        (fun v hv _ => ⟨rfl, fun m hm => ?_⟩) (fun v hv hx => by rw [e1] at hx; cases hx)
        (fun d hd => .inr ⟨d, by rw [← hc1]; exact hd, rfl, fun _ => rfl⟩) (fun _ u hu1 => by rw [hc1, hu] at hu1; cases hu1)
        (fun _ => by rw [hc1, hu, hud]; rfl) (fun _ => ?_) ?_ (.inl ?_) h2
      · obtain ⟨e, he, hen⟩ := hdim m v hv hm
        exact ⟨e, by rw [hc1]; exact he, e, he, hen, hen, rfl, fun _ => no_unl hu e he⟩
      · rw [e1]
        simp [part, hu, lastEnd]
      · rw [e1]
        simp [coordOf, hu]
        rfl
      · simp [coordOf, hu]
    | some u =>
      rw [hu] at h
      obtain ⟨s1, h1, h2⟩ := firstProviders_ok h
      obtain ⟨e1, e2⟩ := extendBy_ok h1
      have hfn : ∀ v : Var (Body R D), (if hasUnlimitedDim p.1 v then noData v else v).name = v.name := fun v => by split <;> rfl
      have hi := inv_map hf.inv hfn
      obtain ⟨L, I, O, Vs, U, A, B⟩ := setUnlimited_later .existing (by simp) hi (lastEnd [] + u.length)
      have hc1 : s1.cdm = setUnlimited (lastEnd [] + u.length) { p.1 with vars := p.1.vars.map fun v => if hasUnlimitedDim p.1 v then noData v else v } := by rw [e1]
      have hj1 : ∀ n, n ∈ s1.join ↔ ∃ v ∈ p.1.vars, hasUnlimitedDim p.1 v = true ∧ v.name = n := fun n => by
        rw [e1]
        simp [and_assoc]
      have hmem : ∀ w : Var (Body R D), hasUnlimitedDim p.1 w = true ↔ u.name ∈ w.shape := fun w => by simp [hasUnlimitedDim, hu]
      have hjv : ∀ v ∈ p.1.vars, v.name ∈ s1.join → hasUnlimitedDim p.1 v = true := fun v hv hx => by
        obtain ⟨w, hw, hwu, hwn⟩ := (hj1 _).1 hx
        rw [← Inv.var_eq hf.inv hw hv hwn]
        exact hwu
      have hud : udName .existing jd [p] = some u.name := by simp [udName, hu]
      have hu1 : getUnlimitedDim s1.cdm = some { u with length := lastEnd [] + u.length } := by
        rw [hc1, U]
        have : getUnlimitedDim ({ p.1 with vars := p.1.vars.map fun v => if hasUnlimitedDim p.1 v then noData v else v } : DS R D V CS) = some u := hu
        rw [this]
        rfl
      have hD : ∀ e ∈ p.1.dims, e.name ≠ u.name → ∃ d ∈ s1.cdm.dims, d.name = e.name ∧ d.length = e.length ∧ d.unlimited = false := fun e he hne => by
        have hel : e.unlimited = false := by
          by_contra hx
          exact hne (by rw [hf.one e he u (unl_of hu).1 (by simpa using hx) (unl_of hu).2])
        obtain ⟨d, q1, q2, q3, q4⟩ := L.dims e he
        exact ⟨d, by rw [hc1]; exact q1, q2, q4 (fun hx => by rw [hel] at hx; cases hx), q3.trans hel⟩
      refine good_first (f := fun v => if hasUnlimitedDim p.1 v then noData v else v) hfn (by rw [hc1]; exact I) (by rw [hc1]; exact O hf.one)
        (by rw [hc1, Vs]) (fun n => by rw [hc1, A]; rfl) (by rw [e1]) (by rw [e1]) (fun hx => by cases hx) (fun hx => by cases hx)
        (fun _ n hn => ?_) (fun v hv hx => ⟨?_, fun m hm => ?_⟩) (fun v hv hx => ?_) (fun d hd => .inr ?_) (fun _ u' hu' => ?_)
        (fun _ => by rw [hu1, hud]; rfl) (fun _ => ?_) ?_ ?_ h2
      · obtain ⟨v, hv, -, rfl⟩ := (hj1 n).1 hn
        rw [hasVariable_iff]
        exact List.mem_map_of_mem hv
      · rw [if_neg]
        intro hy
        exact hx ((hj1 _).2 ⟨v, hv, hy, rfl⟩)
      · obtain ⟨e, he, hen⟩ := hdim m v hv hm
        have hne : e.name ≠ u.name := fun hy => hx ((hj1 _).2 ⟨v, hv, (hmem v).2 (by rw [← hy, hen]; exact hm), rfl⟩)
        obtain ⟨d, q1, q2, q3, q4⟩ := hD e he hne
        exact ⟨d, q1, e, he, q2.trans hen, hen, q3, fun _ => q4⟩
      · have hy := hjv v hv hx
        refine ⟨by simp only [hy, if_true], _, hu1, (hmem v).1 hy, by rw [hu]; rfl, fun n hn hne => ?_⟩
        obtain ⟨e, he, hen⟩ := hdim n v hv hn
        obtain ⟨d, q1, q2, q3, q4⟩ := hD e he (by rw [hen]; exact hne)
        exact ⟨d, q1, e, he, q2.trans hen, hen, q3, q4⟩
      · rw [hc1] at hd
        obtain ⟨d0, b1, b2, b3, b4⟩ := B d hd
        refine ⟨d0, b1, b2, fun hx => ?_⟩
        rw [b4]
        by_contra hy
        cases hx (by simpa using hy)
      · rw [hu1] at hu'
        cases hu'
        rw [e1]
        simp [lastEnd]
      · rw [e1]
        simp [part, hu, hud, lastEnd]
      · rw [e1]
        simp [coordOf, hu, hud]
      · simpa [coordOf, part, hu, hud] using e2
  | new =>
    simp only at h
    have hnd : hasDimension ({ p.1 with dims := limit p.1.dims, coordsInitialized := false } : DS R D V CS) jd = false := by
      by_contra hx
      rw [Bool.not_eq_false, hasDimension_iff] at hx
      simp only at hx
      rw [limit_spec hf.one hf.inv.dims, List.map_map, List.mem_map] at hx
      obtain ⟨d, hd, hdn⟩ := hx
      exact hjd rfl d hd hdn
    have hadd : addDimension ({ p.1 with dims := limit p.1.dims } : DS R D V CS) ⟨jd, 0, true⟩ =
        ({ p.1 with coordsInitialized := false, dims := limit p.1.dims ++ [⟨jd, 0, true⟩] }, .ok ()) := by
      simp [addDimension, hnd]
    rw [hadd] at h
    simp only [if_true] at h
    obtain ⟨s1, h1, h2⟩ := firstProviders_ok h
    obtain ⟨e1, e2⟩ := extendBy_ok h1
    have hfn : ∀ v : Var (Body R D), (if jv.contains v.name then longer jd v else v).name = v.name := fun v => by split <;> rfl
    have hi0 : Inv ({ p.1 with coordsInitialized := false, dims := limit p.1.dims ++ [⟨jd, 0, true⟩] } : DS R D V CS) := by
      refine ⟨hf.inv.vars, ?_, hf.inv.attrNames, hf.inv.owners⟩
      simp only
      rw [limit_spec hf.one hf.inv.dims, List.map_append, List.map_map, List.nodup_append]
      refine ⟨hf.inv.dims, by simp, fun a ha b hb ea => ?_⟩
      obtain ⟨d, hd, rfl⟩ := List.mem_map.1 ha
      simp only [List.map_cons, List.map_nil, List.mem_singleton] at hb
      exact hjd rfl d hd (ea.trans hb)
    have hu0 : getUnlimitedDim ({ p.1 with coordsInitialized := false, dims := limit p.1.dims ++ [⟨jd, 0, true⟩] } : DS R D V CS) = some ⟨jd, 0, true⟩ := by
      unfold getUnlimitedDim
      simp only
      rw [limit_spec hf.one hf.inv.dims, List.find?_append]
      have : (p.1.dims.map fun d => ({ d with unlimited := false } : Dim)).find? (fun d => d.unlimited) = none := by
        rw [List.find?_eq_none]
        intro d hd
        obtain ⟨e, -, rfl⟩ := List.mem_map.1 hd
        simp
      rw [this]
      simp
    have ho0 : OneUnlimited ({ p.1 with coordsInitialized := false, dims := limit p.1.dims ++ [⟨jd, 0, true⟩] } : DS R D V CS) := by
      have : ∀ d ∈ limit p.1.dims ++ [⟨jd, 0, true⟩], d.unlimited = true → d = ⟨jd, 0, true⟩ := fun d hd hdu => by
        rcases List.mem_append.1 hd with hd | hd
        · rw [limit_spec hf.one hf.inv.dims] at hd
          obtain ⟨e, -, rfl⟩ := List.mem_map.1 hd
          cases hdu
        · exact List.mem_singleton.1 hd
      intro a ha b hb hau hbu
      rw [this a ha hau, this b hb hbu]
    have hi := inv_map hi0 hfn
    obtain ⟨L, I, O, Vs, U, A, B⟩ := setUnlimited_later .new (by simp) hi (lastEnd [] + 1)
    have hc1 : s1.cdm = setUnlimited (lastEnd [] + 1) { p.1 with
        coordsInitialized := false, dims := limit p.1.dims ++ [⟨jd, 0, true⟩], vars := p.1.vars.map fun v => if jv.contains v.name then longer jd v else v } := by
      rw [e1]
    have hj1 : s1.join = jv := by rw [e1]
    have hu1 : getUnlimitedDim s1.cdm = some ⟨jd, 1, true⟩ := by
      rw [hc1, U]
      have : getUnlimitedDim ({ p.1 with
        coordsInitialized := false, dims := limit p.1.dims ++ [⟨jd, 0, true⟩], vars := p.1.vars.map fun v => if jv.contains v.name then longer jd v else v } :
          DS R D V CS) = some ⟨jd, 0, true⟩ := hu0
      rw [this]
      rfl
    refine good_first (f := fun v => if jv.contains v.name then longer jd v else v) hfn (by rw [hc1]; exact I) (by rw [hc1]; exact O ho0)
      (by rw [hc1, Vs]) (fun n => by rw [hc1, A]; rfl) (by rw [e1]) (by rw [e1]) (fun _ => hj1) (fun hx => by cases hx)
      (fun hx => by cases hx) (fun v hv hx => ⟨?_, fun m hm => ?_⟩) (fun v hv hx => ?_) (fun d hd => ?_) (fun _ u' hu' => ?_)
      (fun _ => by rw [hu1]; rfl) (fun _ => ?_) ?_ ?_ h2
    · rw [if_neg]
      rw [hj1] at hx
      simpa using hx
    · obtain ⟨e, he, hen⟩ := hdim m v hv hm
      obtain ⟨d, q1, q2, q3, q4⟩ := L.dims { e with unlimited := false } (by
        simp only
        rw [limit_spec hf.one hf.inv.dims]
        exact List.mem_append_left _ (List.mem_map.2 ⟨e, he, rfl⟩))
      exact ⟨d, by rw [hc1]; exact q1, e, he, q2.trans hen, hen, q4 (fun hy => by cases hy), fun _ => q3⟩
    · rw [hj1] at hx
      have : jv.contains v.name = true := by simpa using hx
      simp only [JoinedAs, this, if_true]
    · rw [hc1] at hd
      obtain ⟨d0, b1, b2, b3, b4⟩ := B d hd
      simp only at b1
      rw [limit_spec hf.one hf.inv.dims] at b1
      rcases List.mem_append.1 b1 with b1 | b1
      · obtain ⟨e, he, rfl⟩ := List.mem_map.1 b1
        refine .inr ⟨e, he, b2, fun _ => ?_⟩
        rw [← b4 b3.symm]
      · rw [List.mem_singleton.1 b1] at b2
        exact .inl ⟨rfl, b2.symm⟩
    · rw [hu1] at hu'
      cases hu'
      rw [e1]
      simp [lastEnd]
    · rw [e1]
      simp [part, lastEnd]
    · rw [e1]
      simp [coordOf]
    · simpa [coordOf, part] using e2

/-- The invariant holds after readers have been added without an error. -/
theorem good_addReaders_from {t : Kind} {jd : String} {jv : List String} : ∀ (l2 l1 : List (DS R D V CS × String)) (s0 s' : State R D V CS), l1 ≠ [] →
    (∀ p ∈ l2, Fine p.1 ∧ (t = .new → ∀ d ∈ p.1.dims, d.name ≠ jd)) → Good t jd jv l1 s0 → addReaders t jd l2 s0 = (s', .ok ()) → Good t jd jv (l1 ++ l2) s'
  | [], l1, s0, s', _, _, hg, h => by
    simp only [addReaders, Prod.mk.injEq, and_true] at h
    rw [List.append_nil, ← h]
    exact hg
  | p :: l2, l1, s0, s', hl, hf, hg, h => by
    obtain ⟨s1, h1, h2⟩ := andThen_ok h
    have := good_addReaders_from l2 (l1 ++ [p]) s1 s' (by simp) (fun q hq => hf q (List.mem_cons_of_mem _ hq))
      (good_addOther hl hg (hf p (by simp)).1 (hf p (by simp)).2 h1) h2
    rwa [List.append_assoc] at this

theorem good_addReaders {t : Kind} {jd : String} {jv : List String} {c0 : DS R D V CS} {l : List (DS R D V CS × String)} {s' : State R D V CS} (hl : l ≠ [])
    (hf : ∀ p ∈ l, Fine p.1 ∧ (t = .new → ∀ d ∈ p.1.dims, d.name ≠ jd)) (h : addReaders t jd l (start c0 t jv) = (s', .ok ())) : Good t jd jv l s' := by
  cases l with
  | nil => exact absurd rfl hl
  | cons p l =>
    obtain ⟨s1, h1, h2⟩ := andThen_ok h
    exact good_addReaders_from l [p] s1 s' (by simp) (fun q hq => hf q (List.mem_cons_of_mem _ hq)) (good_addFirst (hf p (by simp)).1 (hf p (by simp)).2 h1) h2

end Fimex.AggSet
