import Verif.Model.ShippedNetwork
import Verif.Model.SurfaceData

/-!
# The shipped maps of drainage directions, lakes and reservoirs

What the shipped netCDF files say about the cells of the shipped routing order.  `tools/gen_surface.py` reads the files and
writes the table `surfaceData`; the files are read by the code at
`/repo/controller/staticdata_handler.py:160-190,252-253`, `/repo/model/lateralwaterbalance/waterbalance_lateral.py:47,94,185-235`.
-/

namespace WG

/-- The 12 digits of row `k`. -/
noncomputable def surfaceRow (k : ℕ) : ℕ := surfaceData.get (k / 64) / 10 ^ (12 * (63 - k % 64)) % 10 ^ 12

/-- `drainage_direction`: -1 for an inland sink, otherwise a number of the number pad (5: the cell itself),
`/repo/input_data/static_input/soil_storage/watergap_22e_drainage_direction.nc`, `staticdata_handler.py:252-253`. -/
noncomputable def shippedDirection (k : ℕ) : ℤ := if surfaceRow k / 10 ^ 11 = 0 then -1 else (surfaceRow k / 10 ^ 11 : ℕ)

/-- `glwdunits`, `/repo/input_data/static_input/watergap_22e_glwdunits.nc`, `waterbalance_lateral.py:694`. -/
noncomputable def shippedUnit (k : ℕ) : ℕ := surfaceRow k / 10 ^ 7 % 10 ^ 4

/-- The sum of 1 (global lake), 2 (area of a reservoir or regulated lake), 4 (storage capacity), 8 (regulated lake). -/
noncomputable def shippedBodies (k : ℕ) : ℕ := surfaceRow k / 10 ^ 5 % 100

/-- A global lake has its area in this cell, `watergap_22e_global_lake_area.nc`, `/repo/model/land_surfacewater_fraction.py:166-191`. -/
def HasLake (k : ℕ) : Prop := shippedBodies k % 2 = 1

/-- A reservoir or regulated lake has its area in this cell, `watergap_22e_reservoir_and_regulated_lake_area.nc`,
`waterbalance_lateral.py:233-235`. -/
def HasRes (k : ℕ) : Prop := shippedBodies k / 2 % 2 = 1

/-- The storage capacity is positive, `watergap_22e_res_stor_cap.nc4`, `waterbalance_lateral.py:399-400`. -/
def HasCap (k : ℕ) : Prop := shippedBodies k / 4 % 2 = 1

/-- The reservoir is a regulated lake, `watergap_22e_regulated_lake_status.nc`, `waterbalance_lateral.py:229-231`. -/
def IsRegulated (k : ℕ) : Prop := shippedBodies k / 8 % 2 = 1

/-- `reservoir_type`, `watergap_22e_reservoir_type.nc4`, `waterbalance_lateral.py:185-187`. -/
noncomputable def shippedResType (k : ℕ) : ℕ := surfaceRow k / 10 ^ 4 % 10

/-- `startyear`, `watergap_22e_startyear.nc4`, `waterbalance_lateral.py:189-191`. -/
noncomputable def shippedStartYear (k : ℕ) : ℕ := surfaceRow k % 10 ^ 4

end WG
