import Verif.Model.PrimeTable
import Verif.Lemmas.PrimeCerts
/-! # C07: the prime tables -/
namespace FireFly
set_option maxRecDepth 100000

lemma primes63_gaps : gapsOK (2 ^ 63) primes63 = true := by decide +kernel
lemma primes128_gaps : gapsOK (2 ^ 128) primes128 = true := by decide +kernel

/-- every table entry is the last number of one of the certificates -/
lemma primes63_certified : (certs63.map (fun c => (c.getLast?.map Prod.fst).getD 0)) = primes63 := by
  decide +kernel
lemma primes128_certified : (certs128_0.map (fun c => (c.getLast?.map Prod.fst).getD 0)) = primes128 := by
  decide +kernel

lemma prime_of_certs {cs : List (List CertEntry)} (h : cs.all (fun c => checkChain c [2]) = true)
    {t : List ℕ} (ht : cs.map (fun c => (c.getLast?.map Prod.fst).getD 0) = t) (h0 : 0 ∉ t) :
    ∀ p ∈ t, p.Prime := by
  intro p hp
  rw [← ht] at hp
  obtain ⟨c, hc, rfl⟩ := List.mem_map.mp hp
  have hck := List.all_eq_true.mp h c hc
  cases hl : c.getLast? with
  | none =>
    exfalso; apply h0; rw [← ht]
    exact List.mem_map.mpr ⟨c, hc, by rw [hl]; rfl⟩
  | some e =>
    have := checkChain_prime c [2] (by intro q hq; rw [List.mem_singleton.mp hq]; exact Nat.prime_two) hck e
      (List.mem_of_getLast? hl)
    simpa using this

/-- C07: `primes()` has 300 entries, each is a prime below `2^63`, they are strictly decreasing, and
every other prime below `2^63` is smaller than all of them: they are the 300 largest. -/
theorem C07_primes63 : primes63.length = 300 ∧ (∀ p ∈ primes63, p.Prime ∧ p < 2 ^ 63) ∧
    primes63.Pairwise (· > ·) ∧
    ∀ q, q.Prime → q < 2 ^ 63 → q ∉ primes63 → ∀ p ∈ primes63, q < p := by
  obtain ⟨h1, h2, h3⟩ := gapsOK_sound primes63 (2 ^ 63) primes63_gaps
  exact ⟨by decide +kernel, fun p hp => ⟨prime_of_certs certs63_ok primes63_certified
    (by decide +kernel) p hp, h2 p hp⟩, h1, h3⟩

/-- C07: the same for `primes_128()` and `2^128`. -/
theorem C07_primes128 : primes128.length = 10 ∧ (∀ p ∈ primes128, p.Prime ∧ p < 2 ^ 128) ∧
    primes128.Pairwise (· > ·) ∧
    ∀ q, q.Prime → q < 2 ^ 128 → q ∉ primes128 → ∀ p ∈ primes128, q < p := by
  obtain ⟨h1, h2, h3⟩ := gapsOK_sound primes128 (2 ^ 128) primes128_gaps
  exact ⟨by decide +kernel, fun p hp => ⟨prime_of_certs certs128_0_ok primes128_certified
    (by decide +kernel) p hp, h2 p hp⟩, h1, h3⟩

/-- C07: hence moduli of different runs are coprime, as Chinese remaindering needs. -/
theorem C07_coprime : primes63.Pairwise Nat.Coprime := by
  obtain ⟨_, h1, h2, _⟩ := C07_primes63
  refine h2.imp_of_mem ?_
  intro a b ha hb hab
  exact (Nat.coprime_primes (h1 a ha).1 (h1 b hb).1).mpr (by omega)

end FireFly
