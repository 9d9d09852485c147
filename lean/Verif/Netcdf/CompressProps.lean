import Verif.Netcdf.DataExamples

/-!
# The library accepts chunks and compression (C90)
-/

namespace Fimex.Netcdf

open Fimex.Cdm
open Fimex.Tables (DataType)

variable {A F U : Type}

theorem zip_any_false {ds : List NcDim} : ∀ {ids ks : List Nat} {fds : List NcDim}, DimsAt ds ids fds →
    List.Forall₂ (fun (d : NcDim) k => 1 ≤ k ∧ (d.unlimited = true ∨ k ≤ d.len)) fds ks →
    ((ids.zip ks).any fun p => p.2 == 0 || (match ds[p.1]? with
      | some d => !d.unlimited && d.len < p.2
      | none => true)) = false
  | [], _, _, _, _ => by simp
  | _ :: _, [], _, _, _ => by simp
  | i :: ids, k :: ks, d :: fds, h, hk => by
    cases h with
    | cons h1 h2 =>
      cases hk with
      | cons k1 k2 =>
        simp only [List.zip_cons_cons, List.any_cons]
        rw [zip_any_false h2 k2, Bool.or_false]
        simp only [h1]
        rcases k1.2 with hu | hl
        · simp [hu]
          omega
        · have : ¬ d.len < k := by omega
          simp [this]
          omega

theorem fits_file {w : Writer A} : ∀ {ds : List Dim} {ks : List Nat}, (∀ d ∈ ds, d.length < 2 ^ 31) →
    List.Forall₂ ChunkFits ds ks →
    List.Forall₂ (fun (d : NcDim) k => 1 ≤ k ∧ (d.unlimited = true ∨ k ≤ d.len)) (ds.map (fileDim w)) ks
  | [], [], _, _ => .nil
  | d :: ds, k :: ks, hs, h => by
    cases h with
    | cons h1 h2 =>
      refine .cons ⟨h1.1, ?_⟩ (fits_file (fun e he => hs e (List.mem_cons_of_mem _ he)) h2)
      by_cases hd : d.unlimited = true
      · exact .inl hd
      · right
        have := definedLength_small (hs d List.mem_cons_self)
        rw [if_neg hd] at this
        show k ≤ definedLength d
        rw [this]
        exact h1.2

/-- C90: in the netCDF-4 formats a library that refuses nothing else takes the chunk sizes and the level of
every variable, and the variable has them afterwards. -/
theorem C90_accepted_partial {L : Lib A} {w : Writer A} {f : NcFile A} {v : Var (Payload A)} {id : Nat} {nv : NcVar A} {ds : List Dim}
    (hL : ∀ g c, L.refuse g c = false) (hfm : f.format = .netcdf4 ∨ f.format = .netcdf4classic) (hinv : Inv w.cdm)
    (hdims : f.dims = w.cdm.dims.map (fileDim w)) (hnv : f.vars[id]? = some nv) (hids : DimIds w.cdm v.shape nv.dims)
    (hds : DimsOf w.cdm v.shape ds) (hsmall : ∀ d ∈ ds, d.length < 2 ^ 31) (hne : v.shape ≠ [])
    (hlevel : 0 < (compressionOf w v.name).1 ∧ (compressionOf w v.name).1 ≤ 9) :
    ∃ f' nv', compress L w f v id = .ok f' ∧ f'.vars[id]? = some nv' ∧
      nv'.deflate = some ((compressionOf w v.name).2, (compressionOf w v.name).1) ∧
      (nv'.chunks = nv.chunks ∨ ∃ ks, nv'.chunks = some ks.reverse ∧ List.Forall₂ ChunkFits ds ks) := by
  have hidlt := (List.getElem?_eq_some_iff.1 hnv).1
  have hdefl : ∀ g : NcFile A, ∀ nvg, g.vars[id]? = some nvg →
      ncDefDeflate L g id (compressionOf w v.name).2 (compressionOf w v.name).1 =
        .ok { g with vars := g.vars.set id { nvg with deflate := some ((compressionOf w v.name).2, (compressionOf w v.name).1) } } := by
    intro g nvg hg
    unfold ncDefDeflate
    rw [hL, if_neg (by simp), if_neg (by omega), hg]
  obtain ⟨total, ks, hks⟩ := chunkLoop_exists hds (w := w) (acc := 1)
  unfold compress
  rw [if_pos hfm]
  simp only
  rw [if_pos ⟨hlevel.1, hne⟩, hks, Res.ok_bind]
  by_cases ht : 0 < total
  · have hfit := C90_chunks_fit w v.shape ds hds total ks hks ht
    have hat := dimsAt_of_dimsOf hinv hids hds
    rw [← hdims] at hat
    have hz := zip_any_false hat (by
      rw [← List.forall₂_reverse_iff, List.reverse_reverse, List.reverse_reverse]
      exact fits_file hsmall hfit : List.Forall₂ _ _ ks.reverse)
    simp only [if_pos ht]
    have hch : ncDefChunking L f id ks.reverse = .ok { f with vars := f.vars.set id { nv with chunks := some ks.reverse } } := by
      unfold ncDefChunking
      rw [hL, if_neg (by simp), hnv]
      simp only
      exact if_neg fun hc => Bool.noConfusion (hz.symm.trans hc)
    rw [hch, Res.ok_bind]
    refine ⟨_, { nv with chunks := some ks.reverse, deflate := some ((compressionOf w v.name).2, (compressionOf w v.name).1) },
      hdefl _ { nv with chunks := some ks.reverse } ?_, ?_, rfl, .inr ⟨ks, rfl, hfit⟩⟩
    · simp [hidlt]
    · simp [hidlt]
  · simp only [if_neg ht]
    refine ⟨_, { nv with deflate := some ((compressionOf w v.name).2, (compressionOf w v.name).1) },
      hdefl f nv hnv, ?_, rfl, .inl rfl⟩
    simp [hidlt]

/-- C90 is violated: with compression level 10 nothing can be written. -/
theorem C90_level_10 {L : Lib A} {w : Writer A} {f : NcFile A} {v : Var (Payload A)} {id : Nat}
    (hfm : f.format = .netcdf4 ∨ f.format = .netcdf4classic) (hne : v.shape ≠ []) (hk : w.compression v.name = some 10) :
    ∀ f', compress L w f v id ≠ .ok f' := by
  have hc : compressionOf w v.name = (10, false) := by
    rw [C90_level w v.name 10 hk (by omega)]
    rfl
  have hdefl : ∀ g f' : NcFile A, ncDefDeflate L g id false 10 ≠ .ok f' := by
    intro g f'
    unfold ncDefDeflate
    split
    · simp
    · simp
  intro f'
  unfold compress
  rw [if_pos hfm]
  simp only [hc]
  rw [if_pos ⟨by omega, hne⟩]
  intro h
  obtain ⟨⟨total, ks⟩, -, h⟩ := Res.bind_eq_ok.1 h
  split at h
  · obtain ⟨g, -, h⟩ := Res.bind_eq_ok.1 h
    exact hdefl _ _ h
  · exact hdefl _ _ h

/-- C90 is about something: the variables of the toy dataset with their chunks, the slowest dimension first, and
with shuffling and level 3. -/
example :
    (match define toyLib toyOps { toyWriter with compression := fun _ => some 13 } [] .netcdf4 with
    | .ok (f, _) => f.vars.map fun (v : NcVar Int) => (v.name, v.chunks, v.deflate)
    | _ => []) = [("x", some [2], some (true, 3)), ("t", some [1, 2], some (true, 3))] := by decide +kernel

end Fimex.Netcdf
