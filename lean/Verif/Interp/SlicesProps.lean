import Verif.Interp.Slices
import Verif.Interp.Vector

/-!
# Slices of interpolated variables: theorems (C79)
-/

namespace Fimex.Interp

variable {β V : Type}

/-! ## Specification -/

/-- A layer of the output for a layer of the input. -/
def scalarLayer (s : Setting β V) (gpre gint gpost : List V → List V) (l : List β) : List β :=
  (gpost (gint (gpre (l.map s.dec)))).map s.enc

/-- A layer of one component of a vector for the layers of both components. -/
def vectorLayer (s : Setting β V) (q : Counterpart β V) (gpre gint gpost : List V → List V)
    (grot : List V → List V → List V × List V) (l l' : List β) : List β :=
  let a := gint (gpre (l.map s.dec))
  let b := gint (gpre (l'.map q.dec))
  (gpost (if q.isX then (grot a b).1 else (grot b a).2)).map s.enc

/-! ## Theorems -/

theorem LayerWise.apply {γ : Type} {N m n : ℕ} {f : List V → Res (List V)} {g : List V → List V} (h : LayerWise N m n f g)
    (l : List γ) (hN : l.length ≤ N) (L : γ → List V) (hL : ∀ r ∈ l, (L r).length = m) : f (l.flatMap L) = .ok (l.flatMap fun r => g (L r)) := by
  have := h.2 (l.map L) (by simpa using hN) (by simpa using hL)
  rw [List.flatMap_def, this, List.map_map, List.flatMap_def]
  rfl

theorem LayerWise2.apply {γ : Type} {N n : ℕ} {f : List V → List V → Res (List V × List V)}
    {g : List V → List V → List V × List V} (h : LayerWise2 N n f g)
    (l : List γ) (hN : l.length ≤ N) (L L' : γ → List V) (hL : ∀ r ∈ l, (L r).length = n ∧ (L' r).length = n) :
    f (l.flatMap L) (l.flatMap L') =
      .ok (l.flatMap fun r => (g (L r) (L' r)).1, l.flatMap fun r => (g (L r) (L' r)).2) := by
  have := h.2 (l.map fun r => (L r, L' r)) (by simpa using hN) (by
    intro x hx
    obtain ⟨r, hr, rfl⟩ := List.mem_map.1 hx
    exact hL r hr)
  simp only [List.map_map, Function.comp_def] at this
  simpa only [List.flatMap_def] using this

section

variable (s : Setting β V) (restNames : List String) (nx ny : ℕ) (rest : List ℕ) (F : List β)
  (gpre gint gpost : List V → List V) (unl : List Bool) (sb0 : SB.Builder) (cs : List SB.Call)

/-- What is assumed about the parts of the interpolation: the variable has the values of the field `F`; processes and
interpolation work layer by layer; the request is made by calls on a slice builder for the output and lies within the
output. -/
structure Sound : Prop where
  holds : Holds s.input s.cache restNames nx ny rest F
  domain : DomainOf s.cache nx ny
  names : (s.cache.xDim :: s.cache.yDim :: restNames).Nodup
  input64 : ∀ n ∈ nx :: ny :: rest, n < two64
  output64 : ∀ n ∈ s.cache.outX :: s.cache.outY :: rest, n < two64
  inPos : 0 < s.cache.inX * s.cache.inY
  outPos : 0 < s.cache.outX * s.cache.outY
  pre : ∀ l, l.length = s.cache.inX * s.cache.inY →
    s.pre.foldlM (fun l p => p l) l = .ok (gpre l) ∧ (gpre l).length = s.cache.inX * s.cache.inY
  post : ∀ l, l.length = s.cache.outX * s.cache.outY →
    s.post.foldlM (fun l p => p l) l = .ok (gpost l) ∧ (gpost l).length = s.cache.outX * s.cache.outY
  interp : LayerWise rest.prod (s.cache.inX * s.cache.inY) (s.cache.outX * s.cache.outY) s.interp gint
  init : SB.init (s.cache.xDim :: s.cache.yDim :: restNames) (s.cache.outX :: s.cache.outY :: rest) unl = .ok sb0
  region : RegionIn (s.cache.outX :: s.cache.outY :: rest) (SB.run sb0 cs).1.start (SB.run sb0 cs).1.size

variable {s restNames nx ny rest F gpre gint gpost unl sb0 cs}

/-- The request in parts. -/
theorem Sound.parts (H : Sound s restNames nx ny rest F gpre gint gpost unl sb0 cs) :
    ∃ x0 y0 t w h z, (SB.run sb0 cs).1.start = x0 :: y0 :: t ∧ (SB.run sb0 cs).1.size = w :: h :: z ∧ RegionIn rest t z := by
  have := H.region
  match hst : (SB.run sb0 cs).1.start, hsz : (SB.run sb0 cs).1.size with
  | x0 :: y0 :: t, w :: h :: z =>
    rw [hst, hsz] at this
    exact ⟨x0, y0, t, w, h, z, rfl, rfl, this.2.2⟩
  | [], _ => rw [hst, hsz] at this; exact this.elim
  | _ :: _, [] => rw [hst, hsz] at this; exact this.elim
  | [_], _ :: _ => rw [hst, hsz] at this; exact this.2.elim
  | _ :: _ :: _, [_] => rw [hst, hsz] at this; exact this.2.elim

/-- **C79.** (Missing: variables whose dimensions are renamed, for which it fails, `C79_renamed_dimensions_raise`.)  The slice
of an interpolated variable is the slice of the whole interpolated field, whatever calls made the
request; the whole field has at each place of the other dimensions the interpolation of the layer of the input at this
place. -/
theorem C79_slices_partial (H : Sound s restNames nx ny rest F gpre gint gpost unl sb0 cs) (hq : s.counterpart = none) :
    getDataSlice s (s.cache.xDim :: s.cache.yDim :: restNames) (SB.run sb0 cs).1 =
      Slice.slice ((cells rest).flatMap fun r => scalarLayer s gpre gint gpost (inputLayer s.cache nx ny rest F r))
        (s.cache.outX :: s.cache.outY :: rest) (SB.run sb0 cs).1.start (SB.run sb0 cs).1.size := by
  obtain ⟨x0, y0, t, w, h, z, hst, hsz, hreg⟩ := H.parts
  have hsb := run_shape H.init cs
  have hin := input_ok H.holds H.domain H.names H.input64 H.names hsb hst hsz hreg
  have hil : ∀ r, InShape rest r → (inputLayer s.cache nx ny rest F r).length = s.cache.inX * s.cache.inY :=
    fun r hr => inputLayer_length H.domain H.holds.data hr
  have hpre := processArray_layerWise _ rest.prod _ _ _ H.inPos H.pre
  have hpost := processArray_layerWise _ rest.prod _ _ _ H.outPos H.post
  have hN : (cells z).length ≤ rest.prod := by rw [cells_length]; exact region_prod hreg
  have hG : ∀ r, InShape rest r →
      (scalarLayer s gpre gint gpost (inputLayer s.cache nx ny rest F r)).length = s.cache.outX * s.cache.outY := by
    intro r hr
    unfold scalarLayer
    rw [List.length_map]
    exact hpost.1 _ (H.interp.1 _ (hpre.1 _ (by rw [List.length_map, hil r hr])))
  have hout := output_ok (G := fun r => scalarLayer s gpre gint gpost (inputLayer s.cache nx ny rest F r)) H.names hsb hG
    H.output64 hst hsz H.region
  have hil' : ∀ r ∈ cells z, (inputLayer s.cache nx ny rest F (addIdx t r)).length = s.cache.inX * s.cache.inY :=
    fun r hr => hil _ (hreg.shift (mem_cells.1 hr))
  unfold getDataSlice
  rw [hin, Res.ok_bind]
  have hlen := length_flatMap_const (cells z) (fun r => inputLayer s.cache nx ny rest F (addIdx t r)) _ hil'
  by_cases hz : (cells z).length = 0
  · rw [if_pos (by rw [hlen, hz, Nat.zero_mul]), ← hout]
    have hz' : cells z = [] := List.length_eq_zero_iff.1 hz
    rw [hz', List.flatMap_nil, List.flatMap_nil]
    have hrun := H.region
    have e2 := slice_layers [s.cache.outX, s.cache.outY] [x0, y0] [w, h] rest t z
      (fun r => scalarLayer s gpre gint gpost (inputLayer s.cache nx ny rest F r)) (by simp)
      (fun r hr => by rw [hG _ hr]; simp) (by rw [hst, hsz] at hrun; exact ⟨hrun.1, hrun.2.1, trivial⟩) hreg
      (by simpa using H.output64)
    rw [hz', List.flatMap_nil] at hout e2
    rw [hout, hst, hsz]
    exact e2.symm
  · rw [if_neg (by rw [hlen]; exact Nat.mul_ne_zero hz H.inPos.ne'), List.map_flatMap,
      hpre.apply (cells z) hN (fun r => (inputLayer s.cache nx ny rest F (addIdx t r)).map s.dec)
        (fun r hr => by rw [List.length_map, hil' r hr]), Res.ok_bind,
      H.interp.apply (cells z) hN (fun r => gpre ((inputLayer s.cache nx ny rest F (addIdx t r)).map s.dec))
        (fun r hr => hpre.1 _ (by rw [List.length_map, hil' r hr])), Res.ok_bind]
    unfold withCounterpart
    rw [hq]
    simp only [Res.ok_bind]
    rw [hpost.apply (cells z) hN (fun r => gint (gpre ((inputLayer s.cache nx ny rest F (addIdx t r)).map s.dec)))
        (fun r hr => H.interp.1 _ (hpre.1 _ (by rw [List.length_map, hil' r hr]))), Res.ok_bind, List.map_flatMap]
    exact hout

/-- **C79.** The same for a component of a vector: each layer is made of the layers of both components. -/
theorem C79_vector_slices_partial (H : Sound s restNames nx ny rest F gpre gint gpost unl sb0 cs) (q : Counterpart β V)
    (hq : s.counterpart = some q) (C : List β) (hC : Holds q.input s.cache restNames nx ny rest C)
    (grot : List V → List V → List V × List V) (hrot : LayerWise2 rest.prod (s.cache.outX * s.cache.outY) q.rotate grot) :
    getDataSlice s (s.cache.xDim :: s.cache.yDim :: restNames) (SB.run sb0 cs).1 =
      Slice.slice ((cells rest).flatMap fun r => vectorLayer s q gpre gint gpost grot (inputLayer s.cache nx ny rest F r)
          (inputLayer s.cache nx ny rest C r))
        (s.cache.outX :: s.cache.outY :: rest) (SB.run sb0 cs).1.start (SB.run sb0 cs).1.size := by
  obtain ⟨x0, y0, t, w, h, z, hst, hsz, hreg⟩ := H.parts
  have hsb := run_shape H.init cs
  have hin := input_ok H.holds H.domain H.names H.input64 H.names hsb hst hsz hreg
  have hinC := input_ok hC H.domain H.names H.input64 H.names hsb hst hsz hreg
  have hil : ∀ r, InShape rest r → (inputLayer s.cache nx ny rest F r).length = s.cache.inX * s.cache.inY :=
    fun r hr => inputLayer_length H.domain H.holds.data hr
  have hilC : ∀ r, InShape rest r → (inputLayer s.cache nx ny rest C r).length = s.cache.inX * s.cache.inY :=
    fun r hr => inputLayer_length H.domain hC.data hr
  have hpre := processArray_layerWise _ rest.prod _ _ _ H.inPos H.pre
  have hpost := processArray_layerWise _ rest.prod _ _ _ H.outPos H.post
  have hN : (cells z).length ≤ rest.prod := by rw [cells_length]; exact region_prod hreg
  have hA : ∀ r, InShape rest r →
      (gint (gpre ((inputLayer s.cache nx ny rest F r).map s.dec))).length = s.cache.outX * s.cache.outY :=
    fun r hr => H.interp.1 _ (hpre.1 _ (by rw [List.length_map, hil r hr]))
  have hB : ∀ r, InShape rest r →
      (gint (gpre ((inputLayer s.cache nx ny rest C r).map q.dec))).length = s.cache.outX * s.cache.outY :=
    fun r hr => H.interp.1 _ (hpre.1 _ (by rw [List.length_map, hilC r hr]))
  have hG : ∀ r, InShape rest r → (vectorLayer s q gpre gint gpost grot (inputLayer s.cache nx ny rest F r)
      (inputLayer s.cache nx ny rest C r)).length = s.cache.outX * s.cache.outY := by
    intro r hr
    unfold vectorLayer
    rw [List.length_map]
    refine hpost.1 _ ?_
    split
    · exact (hrot.1 _ _ (hA r hr) (hB r hr)).1
    · exact (hrot.1 _ _ (hB r hr) (hA r hr)).2
  have hout := output_ok (G := fun r => vectorLayer s q gpre gint gpost grot (inputLayer s.cache nx ny rest F r)
    (inputLayer s.cache nx ny rest C r)) H.names hsb hG H.output64 hst hsz H.region
  have hsh : ∀ r ∈ cells z, InShape rest (addIdx t r) := fun r hr => hreg.shift (mem_cells.1 hr)
  have hil' : ∀ r ∈ cells z, (inputLayer s.cache nx ny rest F (addIdx t r)).length = s.cache.inX * s.cache.inY :=
    fun r hr => hil _ (hsh r hr)
  have hilC' : ∀ r ∈ cells z, (inputLayer s.cache nx ny rest C (addIdx t r)).length = s.cache.inX * s.cache.inY :=
    fun r hr => hilC _ (hsh r hr)
  unfold getDataSlice
  rw [hin, Res.ok_bind]
  have hlen := length_flatMap_const (cells z) (fun r => inputLayer s.cache nx ny rest F (addIdx t r)) _ hil'
  have hlenC := length_flatMap_const (cells z) (fun r => inputLayer s.cache nx ny rest C (addIdx t r)) _ hilC'
  by_cases hz : (cells z).length = 0
  · rw [if_pos (by rw [hlen, hz, Nat.zero_mul])]
    have hz' : cells z = [] := List.length_eq_zero_iff.1 hz
    have hrun := H.region
    have e2 := slice_layers [s.cache.outX, s.cache.outY] [x0, y0] [w, h] rest t z
      (fun r => vectorLayer s q gpre gint gpost grot (inputLayer s.cache nx ny rest F r)
        (inputLayer s.cache nx ny rest C r)) (by simp)
      (fun r hr => by rw [hG _ hr]; simp) (by rw [hst, hsz] at hrun; exact ⟨hrun.1, hrun.2.1, trivial⟩) hreg
      (by simpa using H.output64)
    rw [hz', List.flatMap_nil] at e2
    rw [hz', List.flatMap_nil, hst, hsz]
    exact e2.symm
  · rw [if_neg (by rw [hlen]; exact Nat.mul_ne_zero hz H.inPos.ne'), List.map_flatMap,
      hpre.apply (cells z) hN (fun r => (inputLayer s.cache nx ny rest F (addIdx t r)).map s.dec)
        (fun r hr => by rw [List.length_map, hil' r hr]), Res.ok_bind,
      H.interp.apply (cells z) hN (fun r => gpre ((inputLayer s.cache nx ny rest F (addIdx t r)).map s.dec))
        (fun r hr => hpre.1 _ (by rw [List.length_map, hil' r hr])), Res.ok_bind]
    have hw : withCounterpart s (SB.run sb0 cs).1
        ((cells z).flatMap fun r => inputLayer s.cache nx ny rest F (addIdx t r)).length
        ((cells z).flatMap fun r => gint (gpre ((inputLayer s.cache nx ny rest F (addIdx t r)).map s.dec))) =
        .ok ((cells z).flatMap fun r => if q.isX
          then (grot (gint (gpre ((inputLayer s.cache nx ny rest F (addIdx t r)).map s.dec)))
            (gint (gpre ((inputLayer s.cache nx ny rest C (addIdx t r)).map q.dec)))).1
          else (grot (gint (gpre ((inputLayer s.cache nx ny rest C (addIdx t r)).map q.dec)))
            (gint (gpre ((inputLayer s.cache nx ny rest F (addIdx t r)).map s.dec)))).2) := by
      unfold withCounterpart
      rw [hq]
      dsimp only
      rw [hinC, Res.ok_bind, if_neg (by rw [hlen, hlenC]; omega), List.take_of_length_le (by rw [List.length_map, hlen, hlenC]),
        List.map_flatMap, hpre.apply (cells z) hN (fun r => (inputLayer s.cache nx ny rest C (addIdx t r)).map q.dec)
          (fun r hr => by rw [List.length_map, hilC' r hr]), Res.ok_bind,
        H.interp.apply (cells z) hN (fun r => gpre ((inputLayer s.cache nx ny rest C (addIdx t r)).map q.dec))
          (fun r hr => hpre.1 _ (by rw [List.length_map, hilC' r hr])), Res.ok_bind]
      cases hX : q.isX
      · simp only [Bool.false_eq_true, if_false]
        rw [hrot.apply (cells z) hN _ _ fun r hr => ⟨hB _ (hsh r hr), hA _ (hsh r hr)⟩]
        rfl
      · simp only [if_true]
        rw [hrot.apply (cells z) hN _ _ fun r hr => ⟨hA _ (hsh r hr), hB _ (hsh r hr)⟩]
        rfl
    rw [hw, Res.ok_bind, hpost.apply (cells z) hN _ (fun r hr => by
        split
        · exact (hrot.1 _ _ (hA _ (hsh r hr)) (hB _ (hsh r hr))).1
        · exact (hrot.1 _ _ (hB _ (hsh r hr)) (hA _ (hsh r hr))).2), Res.ok_bind, List.map_flatMap]
    exact hout

/-- **C79.** A request for everything gives the whole field. -/
theorem C79_whole_partial (H : Sound s restNames nx ny rest F gpre gint gpost unl sb0 []) (hq : s.counterpart = none) :
    getDataSlice s (s.cache.xDim :: s.cache.yDim :: restNames) sb0 =
      .ok ((cells rest).flatMap fun r => scalarLayer s gpre gint gpost (inputLayer s.cache nx ny rest F r)) := by
  have := C79_slices_partial H hq
  rw [SB.run] at this
  dsimp only at this
  obtain ⟨-, -, i1, i2⟩ := SB.init_shape H.init
  rw [this, i1, i2]
  have hpre := processArray_layerWise _ rest.prod _ _ _ H.inPos H.pre
  have hpost := processArray_layerWise _ rest.prod _ _ _ H.outPos H.post
  have hG : ∀ r ∈ cells rest,
      (scalarLayer s gpre gint gpost (inputLayer s.cache nx ny rest F r)).length = s.cache.outX * s.cache.outY := by
    intro r hr
    unfold scalarLayer
    rw [List.length_map]
    exact hpost.1 _ (H.interp.1 _ (hpre.1 _ (by
      rw [List.length_map, inputLayer_length H.domain H.holds.data (mem_cells.1 hr)])))
  refine Slice.C05_full_slice_is_identity _ _ H.output64 ?_
  rw [length_flatMap_const _ _ _ hG, cells_length]
  rw [List.prod_cons, List.prod_cons, Nat.mul_comm rest.prod, Nat.mul_assoc]

/-- If the x and y dimensions of the variable have other names in the output than in the input (as `changeCDM` does for the
second and further coordinate systems, src/CDMInterpolator.cc:760-770), every request for a part of the output grid raises an
exception. -/
theorem C79_renamed_dimensions_raise (hv : Holds s.input s.cache restNames nx ny rest F) (hdom : DomainOf s.cache nx ny)
    (hn : (s.cache.xDim :: s.cache.yDim :: restNames).Nodup) (h64 : ∀ n ∈ nx :: ny :: rest, n < two64)
    (hin : 0 < s.cache.inX * s.cache.inY) (hint : LayerWise rest.prod (s.cache.inX * s.cache.inY)
      (s.cache.outX * s.cache.outY) s.interp gint) (hpre : s.pre = []) (hpost : s.post = []) (hq : s.counterpart = none)
    (ox oy : String) (hno : (ox :: oy :: restNames).Nodup) (hx : ox ≠ s.cache.xDim ∧ ox ≠ s.cache.yDim)
    (hy : oy ≠ s.cache.xDim ∧ oy ≠ s.cache.yDim)
    (hinit : SB.init (ox :: oy :: restNames) (s.cache.outX :: s.cache.outY :: rest) unl = .ok sb0)
    (x0 y0 w h : ℕ) (t z : List ℕ) (hst : (SB.run sb0 cs).1.start = x0 :: y0 :: t) (hsz : (SB.run sb0 cs).1.size = w :: h :: z)
    (hreg : RegionIn rest t z) (hw : w * h < s.cache.outX * s.cache.outY) (hw64 : w < two64 ∧ h < two64) (hz : 0 < z.prod) :
    getDataSlice s (ox :: oy :: restNames) (SB.run sb0 cs).1 = .throws := by
  have hsb := run_shape hinit cs
  have hinp := input_ok hv hdom hn h64 hno hsb hst hsz hreg
  have hil : ∀ r, InShape rest r → (inputLayer s.cache nx ny rest F r).length = s.cache.inX * s.cache.inY :=
    fun r hr => inputLayer_length hdom hv.data hr
  have hil' : ∀ r ∈ cells z, (inputLayer s.cache nx ny rest F (addIdx t r)).length = s.cache.inX * s.cache.inY :=
    fun r hr => hil _ (hreg.shift (mem_cells.1 hr))
  have hN : (cells z).length ≤ rest.prod := by rw [cells_length]; exact region_prod hreg
  have hlen := length_flatMap_const (cells z) (fun r => inputLayer s.cache nx ny rest F (addIdx t r)) _ hil'
  unfold getDataSlice
  rw [hinp, Res.ok_bind, if_neg (by rw [hlen, cells_length]; exact Nat.mul_ne_zero (by omega) hin.ne')]
  unfold processArray withCounterpart
  rw [hpre, hpost, hq]
  simp only [List.isEmpty_nil, if_true, Res.ok_bind]
  rw [List.map_flatMap, hint.apply (cells z) hN _ (fun r hr => by rw [List.length_map, hil' r hr]), Res.ok_bind]
  have hd : (List.range (ox :: oy :: restNames).length).map (fun i =>
      outputDim s.cache ((ox :: oy :: restNames).getD i "") ((SB.run sb0 cs).1.start.getD i 0) ((SB.run sb0 cs).1.size.getD i 0)
        ((SB.run sb0 cs).1.maxSize.getD i 0)) = (w :: h :: z).map fun n => (0, n) := by
    have hl : restNames.length = z.length := by
      have h2 := hsb.sz
      rw [hsz] at h2
      simp at h2
      omega
    rw [hst, hsz, hsb.mx]
    refine List.ext_getElem? fun i => ?_
    match i with
    | 0 => simp [outputDim, hx]
    | 1 => simp [outputDim, hy]
    | i + 2 =>
      rcases Nat.lt_or_ge i z.length with hi | hi
      · have hmem : restNames[i]'(by omega) ∈ restNames := List.getElem_mem _
        have hx : restNames[i]'(by omega) ≠ s.cache.xDim := by intro e; simp at hn; exact hn.1.2 (e ▸ hmem)
        have hy : restNames[i]'(by omega) ≠ s.cache.yDim := by intro e; simp at hn; exact hn.2.1 (e ▸ hmem)
        have hi' : i < restNames.length := by omega
        simp [hi, hi', outputDim, hx, hy]
      · rw [List.getElem?_eq_none (by simp; omega), List.getElem?_eq_none (by simp; omega)]
  unfold getOutputDataSlice
  dsimp only
  rw [hd, hsz, List.map_map, List.map_map]
  generalize hL : List.map s.enc _ = L
  have hLl : L.length = (cells z).length * (s.cache.outX * s.cache.outY) := by
    rw [← hL, List.length_map]
    refine length_flatMap_const (cells z) _ _ fun r hr => ?_
    exact hint.1 _ (by rw [List.length_map, hil' r hr])
  have hz64 : ∀ n ∈ z, n < two64 := by
    have : ∀ {d s z : List ℕ}, RegionIn d s z → (∀ n ∈ d, n < two64) → ∀ n ∈ z, n < two64 := by
      intro d
      induction d with
      | nil => intro s z h _; match s, z, h with | [], [], _ => simp
      | cons a d ih =>
        intro s z h hd
        match s, z, h with
        | s :: ss, w :: ws, h =>
          intro n hn
          rcases List.mem_cons.1 hn with rfl | hn
          · have := hd a (by simp); have := h.1; omega
          · exact ih h.2 (fun n hn => hd n (by simp [hn])) n hn
    exact this hreg fun n hn => h64 n (by simp [hn])
  have e1 : (w :: h :: z).map ((fun x => x.2) ∘ fun n : ℕ => ((0 : ℕ), n)) = w :: h :: z := by simp [Function.comp_def]
  have e2 : (w :: h :: z).map ((fun x => x.1) ∘ fun n : ℕ => ((0 : ℕ), n)) = (w :: h :: z).map fun _ => 0 := by
    simp [Function.comp_def]
  rw [e1, e2]
  have hzz : ∀ z : List ℕ, RegionIn z (z.map fun _ => 0) z := by
    intro z
    induction z with
    | nil => trivial
    | cons a z ih => exact ⟨by simp, ih⟩
  have hall : ∀ n ∈ w :: h :: z, n < two64 := by
    intro n hn
    simp at hn
    rcases hn with rfl | rfl | hn
    · exact hw64.1
    · exact hw64.2
    · exact hz64 n hn
  have hck := Slice.checkDims_eq (d := w :: h :: z) (s := (w :: h :: z).map fun _ => 0) (z := w :: h :: z) (by simp) rfl
    (Slice.RegionIn.noWrap (hzz _) hall)
  rw [if_pos (hzz _)] at hck
  unfold Slice.slice
  rw [if_neg (by simp), hck, Res.ok_bind, if_pos]
  rw [hLl, cells_length]
  have : w * h * z.prod < s.cache.outX * s.cache.outY * z.prod := Nat.mul_lt_mul_of_pos_right hw hz
  simp only [List.prod_cons]
  rw [Nat.mul_comm z.prod, ← Nat.mul_assoc]
  omega

/-- If the other component of a vector has fewer values than the component itself, memory outside its array is read. -/
theorem C79_short_counterpart_undefined (sb : SB.Builder) (q : Counterpart β V) (data cdata : List β) (a i : List V)
    (names : List String) (hq : s.counterpart = some q) (hd : getInputDataSlice s.cache s.input sb = .ok data)
    (hc : getInputDataSlice s.cache q.input sb = .ok cdata) (hlt : cdata.length < data.length)
    (ha : processArray s.pre (data.map s.dec) s.cache.inX s.cache.inY = .ok a) (hi : s.interp a = .ok i) :
    getDataSlice s names sb = .ub := by
  unfold getDataSlice
  rw [hd, Res.ok_bind, if_neg (by omega), ha, Res.ok_bind, hi, Res.ok_bind]
  have : withCounterpart s sb data.length i = .ub := by
    unfold withCounterpart
    rw [hq]
    dsimp only
    rw [hc, Res.ok_bind, if_pos hlt]
  rw [this]
  rfl

end

end Fimex.Interp
