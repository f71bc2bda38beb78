import Lean.Meta.Tactic.Simp.RegisterCommand

/-- Entries of the tables and arrays of the fixed-order element model. -/
register_simp_attr shape_entry
