import Verif.Model.Types

/-! # metadata/repository/repository.go -/

namespace Tuf

/-- `repositoryType`, `repository.go:19-24`; pointers may be nil. -/
structure Repository where
  root : Option (Metadata RootType) := none
  snapshot : Option (Metadata SnapshotType) := none
  timestamp : Option (Metadata TimestampType) := none
  targets : Entries (Option (Metadata TargetsType)) := []

namespace Repository
/-- `New`, `repository.go:27-31`. -/
def new : Repository := {}
/-- `SetRoot`, `repository.go:39-41`. -/
def setRoot (r : Repository) (m : Option (Metadata RootType)) : Repository := { r with root := m }
/-- `SetSnapshot`, `repository.go:49-51`. -/
def setSnapshot (r : Repository) (m : Option (Metadata SnapshotType)) : Repository := { r with snapshot := m }
/-- `SetTimestamp`, `repository.go:59-61`. -/
def setTimestamp (r : Repository) (m : Option (Metadata TimestampType)) : Repository := { r with timestamp := m }
/-- `SetTargets`, `repository.go:69-71`. -/
def setTargets (r : Repository) (name : Str) (m : Option (Metadata TargetsType)) : Repository :=
  { r with targets := r.targets.set name m }
/-- `Targets`, `repository.go:64-66`: nil for an absent name. (`Root`, `Snapshot`, `Timestamp`, lines 34-56, are the fields.) -/
def getTargets (r : Repository) (name : Str) : Option (Metadata TargetsType) := (r.targets.get? name).join
end Repository

end Tuf
