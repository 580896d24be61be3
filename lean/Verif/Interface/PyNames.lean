import Verif.Interface.Python

/-!
# Tables of wavefield positions of the elastic and acoustic propagators

Models the tables of `zero_edges_and_interiors` and, for the Python backend of the elastic propagator,
the tables and name lists of `elastic_python` (elastic.py lines 2206-2400) and the dictionary
passed to the callback (lines 2488-2506).  `values i` is the tensor at position `i` of
`wavefields_flat`; an entry of a table is `none` for `torch.empty(0)`.  Names are written without the
suffix `_0`.  The update functions replace the entries of the tables other than `torch.empty(0)` and
keep their positions.
-/

namespace Dw.Interface

/-- The lists `velocities`, `normal_stresses`, rows of `shear_stresses`, `v_mem_vars_normal`, rows of
`v_mem_vars_shear`, `s_mem_vars_normal`, rows of `s_mem_vars_shear`, in the order in which they are
shown to the callback. -/
def pyTables {α : Type*} (nd : ℕ) (values : ℕ → α) : List (List (Option α)) :=
  let f := fun i => some (values i)
  if nd = 3 then
    [[f 0, f 14, f 23], [f 1, f 15, f 24],
     [none, f 2, f 3], [f 2, none, f 16], [f 3, f 16, none],
     [f 4, f 17, f 25],
     [none, f 5, f 6], [f 7, none, f 18], [f 8, f 19, none],
     [f 9, f 20, f 26],
     [none, f 10, f 11], [f 12, none, f 22], [f 13, f 21, none]]
  else if nd = 2 then
    [[f 0, f 9], [f 1, f 10],
     [none, f 2], [f 2, none],
     [f 3, f 11],
     [none, f 4], [f 5, none],
     [f 6, f 12],
     [none, f 8], [f 7, none]]
  else [[f 0], [f 1], [], [f 2], [], [f 3], []]

/-- The lists of names, in the same order; the loops over rows run over the rows of names, so rows
without names are not shown (written as empty rows). -/
def pyNames (nd : ℕ) : List (List String) :=
  if nd = 3 then
    [["vz", "vy", "vx"], ["sigmazz", "sigmayy", "sigmaxx"],
     ["sigmayz", "sigmaxz"], ["sigmaxy"], [],
     ["m_vzz", "m_vyy", "m_vxx"],
     ["m_vzy", "m_vzx"], ["m_vyz", "m_vyx"], ["m_vxz", "m_vxy"],
     ["m_sigmazzz", "m_sigmayyy", "m_sigmaxxx"],
     ["m_sigmayzy", "m_sigmaxzx"], ["m_sigmayzz", "m_sigmaxyx"], ["m_sigmaxzz", "m_sigmaxyy"]]
  else if nd = 2 then
    [["vy", "vx"], ["sigmayy", "sigmaxx"],
     ["sigmaxy"], [],
     ["m_vyy", "m_vxx"],
     ["m_vyx", "m_vxy"], [],
     ["m_sigmayyy", "m_sigmaxxx"],
     ["m_sigmaxyx", "m_sigmaxyy"], []]
  else [["vx"], ["sigmaxx"], [], ["m_vxx"], [], ["m_sigmaxxx"], []]

/-- `callback_wavefields[name]`: the dictionaries `dict(zip(names, tensors))` are merged in order, a
later entry replacing an earlier one. -/
def pyCallbackFields {α : Type*} (nd : ℕ) (values : ℕ → α) (name : String) : Option (Option α) :=
  (List.zipWith List.zip (pyNames nd) (pyTables nd values)).flatten.reverse.lookup name

/-- `final_wavefields_list` (elastic.py lines 2625-2685), as (table, column) with tables numbered as in
`pyTables`. -/
def pyFinal (nd : ℕ) : List (ℕ × ℕ) :=
  if nd = 3 then
    [(0, 0), (1, 0), (2, 1), (2, 2), (5, 0), (6, 1), (6, 2), (7, 0), (8, 0), (9, 0), (10, 1), (10, 2),
     (11, 0), (12, 0), (0, 1), (1, 1), (3, 2), (5, 1), (7, 2), (8, 1), (9, 1), (12, 1), (11, 2), (0, 2),
     (1, 2), (5, 2), (9, 2)]
  else if nd = 2 then
    [(0, 0), (1, 0), (2, 1), (4, 0), (5, 1), (6, 0), (7, 0), (9, 0), (8, 1), (0, 1), (1, 1), (4, 1),
     (7, 1)]
  else [(0, 0), (1, 0), (3, 0), (5, 0)]

/-- The tensors at the positions of `pyFinal`. -/
def pyFinalFields {α : Type*} (nd : ℕ) (values : ℕ → α) : List (Option α) :=
  (pyFinal nd).map fun p => ((pyTables nd values)[p.1]?.bind (·[p.2]?)).join

/-! ## `zero_edges_and_interiors` -/

/-- What the function does to the wavefield at a position: `zero_edge(wavefields[i], fd_pad, dim)`, or
`zero_interior(wavefields[i], …, pml_width, dim)`, with the trailing pad of `dim` enlarged by one if
`shift`. -/
inductive ZeroOp where
  | edge (i dim : ℕ)
  | interior (i dim : ℕ) (shift : Bool)
  deriving DecidableEq

/-- Both functions: `half` lists for every dimension the positions for which `half_grid[i][dim]` is set,
`pml` is `pml_edge_idx`. -/
def zeroOps (half pml : List (List ℕ)) (interior : Bool) : List ZeroOp :=
  (half.zipIdx.flatMap fun p => p.1.map fun i => .edge i p.2) ++
  if interior then pml.zipIdx.flatMap fun p => p.1.map fun i =>
    .interior i p.2 ((half[p.2]?.getD []).contains i)
  else []

/-- elastic.py lines 1117-1175. -/
def elasticZero (nd : ℕ) (interior : Bool) : List ZeroOp :=
  if nd = 3 then
    zeroOps [[0, 2, 3, 5, 6, 7, 8, 9, 10, 11], [2, 5, 7, 12, 14, 16, 18, 19, 20, 22],
      [3, 6, 8, 13, 16, 18, 19, 21, 23, 26]]
      [[4, 7, 8, 9, 12, 13], [5, 10, 17, 19, 20, 21], [6, 11, 18, 22, 25, 26]] interior
  else if nd = 2 then
    zeroOps [[0, 2, 4, 5, 6, 8], [2, 4, 5, 7, 9, 12]] [[3, 5, 6, 7], [4, 8, 11, 12]] interior
  else zeroOps [[0, 3]] [[2, 3]] interior

/-- acoustic.py lines 683-732 (the edges are cleared in another order). -/
def acousticZero (nd : ℕ) (interior : Bool) : List ZeroOp :=
  if nd = 3 then zeroOps [[1, 7], [2, 8], [3, 9]] [[4, 7], [5, 8], [6, 9]] interior
  else if nd = 2 then zeroOps [[1, 5], [2, 6]] [[3, 5], [4, 6]] interior
  else zeroOps [[1, 3]] [[2, 3]] interior

end Dw.Interface
