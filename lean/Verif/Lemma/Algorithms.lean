import Verif.Model.Algorithms
import Verif.Spec.ForEach
import Verif.Lemma.Memory

/-!
# Lemmas on chunked iteration
-/

namespace Vc.Lemma
open Vc.Model Vc.Spec

def runChunks (body : Nat → Int → τ → Option τ) : List Nat → Int → τ → Option τ
  | [], _, t => some t
  | k :: ks, p, t => (body k p t).bind (runChunks body ks (p + k))

theorem oneLoop_eq (body : Nat → Int → τ → Option τ) (r : Nat) (first : Int) (t : τ) :
    oneLoop (body 1) first (first + r) t = runChunks body (List.replicate r 1) first t := by
  induction r generalizing first t with
  | zero => rw [oneLoop, if_pos (by omega)]; rfl
  | succ r ih =>
    rw [oneLoop, if_neg (by omega), if_neg (by omega)]
    show _ = (body 1 first t).bind _
    congr 1
    funext t'
    have := ih (first + 1) t'
    rw [show first + ((r + 1 : Nat) : Int) = first + 1 + r by omega]
    exact this

theorem loops_eq (w : Nat) (hw : 0 < w) (body : Nat → Int → τ → Option τ) (q r : Nat) (hr : r < w)
    (first : Int) (t : τ) :
    (vecLoop w hw (body w) first (first + (q * w + r : Nat) - w + 1) t).bind
      (fun x => oneLoop (body 1) x.1 (first + (q * w + r : Nat)) x.2) =
    runChunks body (List.replicate q w ++ List.replicate r 1) first t := by
  induction q generalizing first t with
  | zero =>
    rw [vecLoop, if_neg (by omega)]
    simp only [Nat.zero_mul, Nat.zero_add, Option.bind_some]
    exact oneLoop_eq body r first t
  | succ q ih =>
    rw [vecLoop, if_pos (by rw [Nat.add_mul]; omega), Option.bind_assoc]
    show _ = (body w first t).bind _
    congr 1
    funext t'
    have := ih (first + w) t'
    rw [show first + (((q + 1) * w + r : Nat) : Int) = first + w + (q * w + r : Nat) by
      rw [Nat.add_mul]; omega]
    exact this

theorem oneLoopN_eq (body : Nat → Int → τ → Option τ) (r : Nat) (first : Int) (t : τ) :
    oneLoopN (body 1) r first t = runChunks body (List.replicate r 1) first t := by
  induction r generalizing first t with
  | zero => rw [oneLoopN, if_pos (by omega)]; rfl
  | succ r ih =>
    rw [oneLoopN, if_neg (by omega), if_neg (by omega)]
    show _ = (body 1 first t).bind _
    congr 1
    funext t'
    rw [show ((r + 1 : Nat) : Int) - 1 = r by omega]
    exact ih (first + 1) t'

theorem loopsN_eq (w : Nat) (hw : 0 < w) (body : Nat → Int → τ → Option τ) (q r : Nat) (hr : r < w)
    (first : Int) (t : τ) :
    (vecLoopN w hw (body w) (q * w + r : Nat) first t).bind
      (fun x => oneLoopN (body 1) x.1 x.2.1 x.2.2) =
    runChunks body (List.replicate q w ++ List.replicate r 1) first t := by
  induction q generalizing first t with
  | zero =>
    rw [vecLoopN, if_neg (by omega)]
    simp only [Nat.zero_mul, Nat.zero_add, Option.bind_some]
    exact oneLoopN_eq body r first t
  | succ q ih =>
    rw [vecLoopN, if_pos (by rw [Nat.add_mul]; omega), Option.bind_assoc]
    show _ = (body w first t).bind _
    congr 1
    funext t'
    rw [show (((q + 1) * w + r : Nat) : Int) - w = (q * w + r : Nat) by
      rw [Nat.add_mul]; omega]
    exact ih (first + w) t'

def cut : List Nat → List α → List (List α)
  | [], _ => []
  | k :: ks, l => l.take k :: cut ks (l.drop k)

theorem cut_flatten (ks : List Nat) (l : List α) (h : ks.sum = l.length) : (cut ks l).flatten = l := by
  induction ks generalizing l with
  | nil => simp at h; cases l <;> simp_all [cut]
  | cons k ks ih =>
    simp only [List.sum_cons] at h
    simp only [cut, List.flatten_cons]
    rw [ih (l.drop k) (by simp; omega), List.take_append_drop]

theorem cut_append (ks ks' : List Nat) (l : List α) :
    cut (ks ++ ks') l = cut ks l ++ cut ks' (l.drop ks.sum) := by
  induction ks generalizing l with
  | nil => simp [cut]
  | cons k ks ih => simp [cut, ih, List.drop_drop]

theorem cut_replicate_length (q w : Nat) (l : List α) (h : q * w ≤ l.length) :
    ∀ c ∈ cut (List.replicate q w) l, c.length = w := by
  induction q generalizing l with
  | zero => intro c hc; cases hc
  | succ q ih =>
    rw [Nat.add_mul] at h
    intro c hc
    simp only [List.replicate_succ, cut, List.mem_cons] at hc
    rcases hc with rfl | hc
    · simp; omega
    · exact ih (l.drop w) (by simp; omega) c hc

theorem cut_length (ks : List Nat) (l : List α) : (cut ks l).length = ks.length := by
  induction ks generalizing l with
  | nil => rfl
  | cons k ks ih => simp [cut, ih]

theorem sum_chunks (q w r : Nat) : (List.replicate q w ++ List.replicate r 1).sum = q * w + r := by
  simp

theorem cut_isChunking (q w r : Nat) (l : List α) (hr : r < w) (h : l.length = q * w + r) :
    IsChunking w l (cut (List.replicate q w ++ List.replicate r 1) l) := by
  refine ⟨cut_flatten _ _ (by rw [sum_chunks, h]), _, _, cut_append _ _ _,
    cut_replicate_length q w l (by omega), cut_replicate_length r 1 _ ?_, ?_⟩
  · simp; omega
  · rw [cut_length]; simpa using hr

theorem vecLoad_mid (pre mid post : List α) (k : Nat) (hk : k ≤ mid.length) :
    vecLoad k (pre ++ mid ++ post) pre.length = some (mid.take k) := by
  unfold vecLoad
  rw [if_pos (by simp; omega)]
  rw [List.append_assoc, List.drop_left, List.take_append_of_le_length hk]

theorem vecStore_mid (pre mid post v : List α) (k : Nat) (hk : k ≤ mid.length) (hv : v.length = k) :
    vecStore (pre ++ mid ++ post) pre.length v = some ((pre ++ v) ++ mid.drop k ++ post) := by
  unfold vecStore
  rw [if_pos (by simp; omega)]
  congr 1
  simp [List.append_assoc, List.drop_append, hv, Nat.sub_eq_zero_of_le hk]

theorem runChunks_const (f : List α → σ → σ) (ks : List Nat) (pre mid post : List α) (s : σ)
    (h : ks.sum = mid.length) :
    runChunks (bodyConst f (pre ++ mid ++ post)) ks pre.length s =
      some ((cut ks mid).foldl (fun s c => f c s) s) := by
  induction ks generalizing pre mid s with
  | nil => rfl
  | cons k ks ih =>
    simp only [List.sum_cons] at h
    simp only [runChunks, bodyConst, loadAt, if_pos (show (0 : Int) ≤ (pre.length : Int) by omega),
      Int.toNat_natCast]
    rw [vecLoad_mid _ _ _ _ (by omega)]
    simp only [Option.bind_eq_bind, Option.bind_some, Option.pure_def]
    have := ih (pre ++ mid.take k) (mid.drop k) (f (mid.take k) s) (by simp; omega)
    simp only [List.append_assoc, List.take_append_drop] at this
    simp only [List.length_append, List.length_take, Nat.min_eq_left (show k ≤ mid.length by omega)] at this
    simp only [List.append_assoc]
    rw [show ((pre.length : Int) + (k : Int)) = ((pre.length + k : Nat) : Int) by omega, this]
    rfl

theorem runChunks_mut (f : List α → σ → List α × σ) (ks : List Nat)
    (hf : ∀ c s, c.length ∈ ks → (f c s).1.length = c.length) (pre mid post : List α) (s : σ)
    (h : ks.sum = mid.length) :
    runChunks (bodyMut f) ks pre.length (pre ++ mid ++ post, s) =
      some (pre ++ (seqMap f (cut ks mid) s).1.flatten ++ post, (seqMap f (cut ks mid) s).2) := by
  induction ks generalizing pre mid s with
  | nil =>
    simp at h
    cases mid <;> simp_all [runChunks, cut, seqMap]
  | cons k ks ih =>
    simp only [List.sum_cons] at h
    have hk : k ≤ mid.length := by omega
    have hlt : (mid.take k).length = k := by simp; omega
    have hfl : (f (mid.take k) s).1.length = k := by
      rw [hf _ _ (by rw [hlt]; exact List.mem_cons_self)]; exact hlt
    simp only [runChunks, bodyMut, loadAt, storeVecAt,
      if_pos (show (0 : Int) ≤ (pre.length : Int) by omega), Int.toNat_natCast]
    rw [vecLoad_mid _ _ _ _ hk]
    simp only [Option.bind_eq_bind, Option.bind_some]
    rw [vecStore_mid _ _ _ _ _ hk hfl]
    simp only [Option.bind_some, Option.pure_def]
    have := ih (fun c s hc => hf c s (List.mem_cons_of_mem _ hc)) (pre ++ (f (mid.take k) s).1)
      (mid.drop k) (f (mid.take k) s).2 (by simp; omega)
    rw [List.length_append, hfl] at this
    rw [show ((pre.length : Int) + (k : Int)) = ((pre.length + k : Nat) : Int) by omega, this]
    simp [cut, seqMap]

theorem slice_split (mem : List α) (first last : Nat) (h1 : first ≤ last) (h2 : last ≤ mem.length) :
    mem = mem.take first ++ slice mem first last ++ mem.drop last ∧
    (mem.take first).length = first ∧ (slice mem first last).length = last - first := by
  unfold slice
  refine ⟨?_, by simp; omega, by simp; omega⟩
  have : mem.drop last = (mem.drop first).drop (last - first) := by
    rw [List.drop_drop]; congr 1; omega
  rw [this, List.append_assoc, List.take_append_drop, List.take_append_drop]

theorem seqMap_length (f : α → σ → β × σ) (l : List α) (s : σ) : (seqMap f l s).1.length = l.length := by
  induction l generalizing s with
  | nil => rfl
  | cons a l ih => simp [seqMap, ih]

theorem seqMap_append (g : α → σ → β × σ) (a b : List α) (s : σ) :
    seqMap g (a ++ b) s =
      ((seqMap g a s).1 ++ (seqMap g b (seqMap g a s).2).1, (seqMap g b (seqMap g a s).2).2) := by
  induction a generalizing s with
  | nil => simp [seqMap]
  | cons x a ih => simp [seqMap, ih]

theorem seqMap_flatten (g : α → σ → β × σ) (cs : List (List α)) (s : σ) :
    ((seqMap (seqMap g) cs s).1.flatten, (seqMap (seqMap g) cs s).2) = seqMap g cs.flatten s := by
  induction cs generalizing s with
  | nil => rfl
  | cons c cs ih =>
    have := ih (seqMap g c s).2
    simp only [List.flatten_cons, seqMap_append, seqMap, Prod.mk.injEq] at this ⊢
    rw [← this]; simp

theorem seqMap_flatten_length (f : List α → σ → List α × σ) (cs : List (List α)) (s : σ)
    (hf : ∀ c ∈ cs, ∀ s, (f c s).1.length = c.length) :
    (seqMap f cs s).1.flatten.length = cs.flatten.length := by
  induction cs generalizing s with
  | nil => rfl
  | cons c cs ih =>
    simp only [seqMap, List.flatten_cons, List.length_append]
    rw [hf c List.mem_cons_self s, ih _ (fun c h => hf c (List.mem_cons_of_mem _ h))]

end Vc.Lemma
