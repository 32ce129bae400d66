import Verif.Model.Basic

/-!
The tape-bump table, transcribed entry by entry from
pizza_cutter/des_pizza_cutter/_tape_bumps.py:10-382 (by a script that reads the literal).
-/

namespace Pizza

/-- One box of the table (_tape_bumps.py:10-382). -/
structure Bump where
  ccd : Nat
  col1 : Nat
  col2 : Nat
  flag : Nat
  row1 : Nat
  row2 : Nat
  deriving DecidableEq, Repr

/-- `TAPE_BUMPS` (_tape_bumps.py:10-382): CCD number and its boxes, in file order. -/
def tapeBumps : List (Nat × List Bump) := [
  (1, [⟨1, 1, 129, 16384, 1, 88⟩,
    ⟨1, 1, 132, 16384, 2005, 2120⟩,
    ⟨1, 1, 147, 16384, 4005, 4096⟩,
    ⟨1, 1902, 2048, 16384, 1, 114⟩,
    ⟨1, 1911, 2048, 16384, 3993, 4096⟩,
    ⟨1, 1917, 2048, 16384, 2031, 2143⟩]),
  (2, [⟨2, 1, 139, 16384, 3983, 4096⟩,
    ⟨2, 1, 148, 16384, 1, 116⟩,
    ⟨2, 1, 149, 16384, 2070, 2205⟩,
    ⟨2, 1915, 2048, 16384, 1, 133⟩,
    ⟨2, 1918, 2048, 16384, 2020, 2165⟩,
    ⟨2, 1927, 2048, 16384, 3986, 4096⟩]),
  (3, [⟨3, 1, 153, 16384, 2019, 2169⟩,
    ⟨3, 1, 155, 16384, 3977, 4096⟩,
    ⟨3, 1, 164, 16384, 1, 128⟩,
    ⟨3, 1899, 2048, 16384, 3959, 4096⟩,
    ⟨3, 1905, 2048, 16384, 1, 89⟩,
    ⟨3, 1906, 2048, 16384, 2049, 2188⟩]),
  (4, [⟨4, 1, 138, 16384, 1, 126⟩,
    ⟨4, 1, 159, 16384, 2024, 2174⟩,
    ⟨4, 1, 164, 16384, 3981, 4096⟩,
    ⟨4, 1904, 2048, 16384, 1, 120⟩,
    ⟨4, 1907, 2048, 16384, 1941, 2072⟩,
    ⟨4, 1918, 2048, 16384, 3993, 4096⟩]),
  (5, [⟨5, 1, 141, 16384, 1992, 2144⟩,
    ⟨5, 1, 144, 16384, 1, 121⟩,
    ⟨5, 1, 149, 16384, 3979, 4096⟩,
    ⟨5, 1896, 2048, 16384, 3967, 4096⟩,
    ⟨5, 1905, 2048, 16384, 1, 126⟩,
    ⟨5, 1909, 2048, 16384, 1937, 2083⟩]),
  (6, [⟨6, 1, 143, 16384, 1, 109⟩,
    ⟨6, 1, 152, 16384, 2074, 2205⟩,
    ⟨6, 1, 152, 16384, 3989, 4096⟩,
    ⟨6, 1896, 2048, 16384, 1, 119⟩,
    ⟨6, 1896, 2048, 16384, 1823, 1965⟩,
    ⟨6, 1905, 2048, 16384, 3979, 4096⟩]),
  (7, [⟨7, 1, 138, 16384, 2036, 2175⟩,
    ⟨7, 1, 146, 16384, 1, 108⟩,
    ⟨7, 1, 146, 16384, 3975, 4096⟩,
    ⟨7, 1898, 2048, 16384, 1956, 2098⟩,
    ⟨7, 1907, 2048, 16384, 3970, 4096⟩,
    ⟨7, 1909, 2048, 16384, 1, 108⟩]),
  (8, [⟨8, 1, 154, 16384, 1, 138⟩,
    ⟨8, 1, 157, 16384, 2024, 2166⟩,
    ⟨8, 1, 164, 16384, 3976, 4096⟩,
    ⟨8, 1872, 2048, 16384, 3968, 4096⟩,
    ⟨8, 1877, 2048, 16384, 1906, 2082⟩,
    ⟨8, 1893, 2048, 16384, 1, 122⟩]),
  (9, [⟨9, 1, 151, 16384, 3971, 4096⟩,
    ⟨9, 1, 157, 16384, 1, 132⟩,
    ⟨9, 1, 175, 16384, 1971, 2127⟩,
    ⟨9, 1873, 2048, 16384, 1942, 2091⟩,
    ⟨9, 1903, 2048, 16384, 3975, 4096⟩,
    ⟨9, 1908, 2048, 16384, 1, 120⟩]),
  (10, [⟨10, 1, 134, 16384, 1, 110⟩,
    ⟨10, 1, 141, 16384, 3977, 4096⟩,
    ⟨10, 1, 158, 16384, 2087, 2251⟩,
    ⟨10, 1888, 2048, 16384, 1937, 2103⟩,
    ⟨10, 1918, 2048, 16384, 1, 117⟩,
    ⟨10, 1918, 2048, 16384, 3972, 4096⟩]),
  (11, [⟨11, 1, 153, 16384, 1, 121⟩,
    ⟨11, 1, 153, 16384, 3957, 4096⟩,
    ⟨11, 1, 158, 16384, 2034, 2184⟩,
    ⟨11, 1918, 2048, 16384, 1, 117⟩,
    ⟨11, 1918, 2048, 16384, 3972, 4096⟩,
    ⟨11, 1922, 2048, 16384, 1958, 2098⟩]),
  (12, [⟨12, 1, 134, 16384, 1, 128⟩,
    ⟨12, 1, 135, 16384, 3987, 4096⟩,
    ⟨12, 1, 136, 16384, 1912, 2046⟩,
    ⟨12, 1907, 2048, 16384, 4000, 4096⟩,
    ⟨12, 1918, 2048, 16384, 1, 113⟩,
    ⟨12, 1918, 2048, 16384, 1949, 2076⟩]),
  (13, [⟨13, 1, 138, 16384, 1976, 2124⟩,
    ⟨13, 1, 144, 16384, 1, 81⟩,
    ⟨13, 1, 175, 16384, 3963, 4096⟩,
    ⟨13, 1896, 2048, 16384, 1, 123⟩,
    ⟨13, 1903, 2048, 16384, 1996, 2145⟩,
    ⟨13, 1907, 2048, 16384, 3986, 4096⟩]),
  (14, [⟨14, 1, 144, 16384, 1, 113⟩,
    ⟨14, 1, 148, 16384, 1942, 2101⟩,
    ⟨14, 1, 154, 16384, 3969, 4096⟩,
    ⟨14, 1909, 2048, 16384, 3982, 4096⟩,
    ⟨14, 1912, 2048, 16384, 1, 123⟩,
    ⟨14, 1912, 2048, 16384, 1914, 2072⟩]),
  (15, [⟨15, 1, 136, 16384, 1, 133⟩,
    ⟨15, 1, 141, 16384, 3970, 4096⟩,
    ⟨15, 1, 152, 16384, 1826, 1961⟩,
    ⟨15, 1909, 2048, 16384, 1841, 1993⟩,
    ⟨15, 1913, 2048, 16384, 1, 136⟩,
    ⟨15, 1917, 2048, 16384, 3979, 4096⟩]),
  (16, [⟨16, 1, 135, 16384, 3971, 4096⟩,
    ⟨16, 1, 148, 16384, 2167, 2301⟩,
    ⟨16, 1, 150, 16384, 1, 108⟩,
    ⟨16, 1890, 2048, 16384, 1, 113⟩,
    ⟨16, 1900, 2048, 16384, 2020, 2171⟩,
    ⟨16, 1901, 2048, 16384, 3964, 4096⟩]),
  (17, [⟨17, 1, 154, 16384, 3978, 4096⟩,
    ⟨17, 1, 162, 16384, 1, 142⟩,
    ⟨17, 1, 163, 16384, 1877, 2012⟩,
    ⟨17, 1894, 2048, 16384, 3993, 4096⟩,
    ⟨17, 1895, 2048, 16384, 1947, 2101⟩,
    ⟨17, 1896, 2048, 16384, 1, 148⟩]),
  (18, [⟨18, 1, 120, 16384, 1, 104⟩,
    ⟨18, 1, 127, 16384, 1926, 2058⟩,
    ⟨18, 1, 135, 16384, 3972, 4096⟩,
    ⟨18, 1892, 2048, 16384, 1, 110⟩,
    ⟨18, 1922, 2048, 16384, 2016, 2160⟩,
    ⟨18, 1928, 2048, 16384, 3984, 4096⟩]),
  (19, [⟨19, 1, 137, 16384, 2056, 2200⟩,
    ⟨19, 1, 141, 16384, 3974, 4096⟩,
    ⟨19, 1, 145, 16384, 1, 121⟩,
    ⟨19, 1892, 2048, 16384, 1944, 2085⟩,
    ⟨19, 1913, 2048, 16384, 3987, 4096⟩,
    ⟨19, 1917, 2048, 16384, 1, 121⟩]),
  (20, [⟨20, 1, 136, 16384, 3975, 4096⟩,
    ⟨20, 1, 151, 16384, 2053, 2202⟩,
    ⟨20, 1, 153, 16384, 1, 124⟩,
    ⟨20, 1903, 2048, 16384, 1, 113⟩,
    ⟨20, 1903, 2048, 16384, 3970, 4096⟩,
    ⟨20, 1910, 2048, 16384, 1935, 2094⟩]),
  (21, [⟨21, 1, 126, 16384, 2023, 2168⟩,
    ⟨21, 1, 126, 16384, 3971, 4096⟩,
    ⟨21, 1, 147, 16384, 1, 129⟩,
    ⟨21, 1897, 2048, 16384, 1855, 2003⟩,
    ⟨21, 1901, 2048, 16384, 1, 122⟩,
    ⟨21, 1917, 2048, 16384, 3946, 4096⟩]),
  (22, [⟨22, 1, 155, 16384, 1930, 2087⟩,
    ⟨22, 1, 158, 16384, 1, 138⟩,
    ⟨22, 1, 167, 16384, 3967, 4096⟩,
    ⟨22, 1895, 2048, 16384, 1, 127⟩,
    ⟨22, 1901, 2048, 16384, 3974, 4096⟩,
    ⟨22, 1904, 2048, 16384, 1863, 1995⟩]),
  (23, [⟨23, 1, 139, 16384, 1, 120⟩,
    ⟨23, 1, 145, 16384, 2049, 2193⟩,
    ⟨23, 1, 149, 16384, 3971, 4096⟩,
    ⟨23, 1893, 2048, 16384, 1925, 2083⟩,
    ⟨23, 1912, 2048, 16384, 1, 130⟩,
    ⟨23, 1914, 2048, 16384, 3978, 4096⟩]),
  (24, [⟨24, 1, 111, 16384, 2086, 2214⟩,
    ⟨24, 1, 132, 16384, 1, 107⟩,
    ⟨24, 1, 138, 16384, 3981, 4096⟩,
    ⟨24, 1910, 2048, 16384, 1, 105⟩,
    ⟨24, 1913, 2048, 16384, 3981, 4096⟩,
    ⟨24, 1914, 2048, 16384, 2054, 2185⟩]),
  (25, [⟨25, 1, 127, 16384, 1, 118⟩,
    ⟨25, 1, 133, 16384, 2037, 2177⟩,
    ⟨25, 1, 142, 16384, 3983, 4096⟩,
    ⟨25, 1885, 2048, 16384, 1, 122⟩,
    ⟨25, 1897, 2048, 16384, 3971, 4096⟩,
    ⟨25, 1915, 2048, 16384, 1996, 2143⟩]),
  (26, [⟨26, 1, 146, 16384, 1, 106⟩,
    ⟨26, 1, 152, 16384, 3970, 4096⟩,
    ⟨26, 1, 154, 16384, 2051, 2206⟩,
    ⟨26, 1894, 2048, 16384, 2013, 2150⟩,
    ⟨26, 1911, 2048, 16384, 1, 115⟩,
    ⟨26, 1913, 2048, 16384, 3970, 4096⟩]),
  (27, [⟨27, 1, 121, 16384, 2083, 2222⟩,
    ⟨27, 1, 134, 16384, 3973, 4096⟩,
    ⟨27, 1, 140, 16384, 1, 139⟩,
    ⟨27, 1900, 2048, 16384, 1, 125⟩,
    ⟨27, 1914, 2048, 16384, 4000, 4096⟩,
    ⟨27, 1920, 2048, 16384, 1998, 2160⟩]),
  (28, [⟨28, 1, 142, 16384, 2181, 2315⟩,
    ⟨28, 1, 142, 16384, 3983, 4096⟩,
    ⟨28, 1, 161, 16384, 1, 117⟩,
    ⟨28, 1889, 2048, 16384, 1937, 2081⟩,
    ⟨28, 1897, 2048, 16384, 3953, 4096⟩,
    ⟨28, 1921, 2048, 16384, 1, 114⟩]),
  (29, [⟨29, 1, 131, 16384, 1968, 2107⟩,
    ⟨29, 1, 146, 16384, 1, 101⟩,
    ⟨29, 1, 157, 16384, 3983, 4096⟩,
    ⟨29, 1897, 2048, 16384, 1, 110⟩,
    ⟨29, 1900, 2048, 16384, 1981, 2138⟩,
    ⟨29, 1900, 2048, 16384, 3952, 4096⟩]),
  (30, [⟨30, 1, 127, 16384, 2174, 2326⟩,
    ⟨30, 1, 134, 16384, 1, 110⟩,
    ⟨30, 1, 149, 16384, 3962, 4096⟩,
    ⟨30, 1899, 2048, 16384, 3965, 4096⟩,
    ⟨30, 1904, 2048, 16384, 1, 138⟩,
    ⟨30, 1907, 2048, 16384, 1964, 2110⟩]),
  (31, [⟨31, 1, 153, 16384, 2071, 2215⟩,
    ⟨31, 1, 165, 16384, 3967, 4096⟩,
    ⟨31, 1, 185, 16384, 1, 112⟩,
    ⟨31, 1904, 2048, 16384, 3968, 4096⟩,
    ⟨31, 1905, 2048, 16384, 1, 102⟩,
    ⟨31, 1908, 2048, 16384, 1992, 2141⟩]),
  (32, [⟨32, 1, 136, 16384, 1, 112⟩,
    ⟨32, 1, 136, 16384, 1938, 2097⟩,
    ⟨32, 1, 149, 16384, 3970, 4096⟩,
    ⟨32, 1900, 2048, 16384, 1940, 2081⟩,
    ⟨32, 1906, 2048, 16384, 3959, 4096⟩,
    ⟨32, 1922, 2048, 16384, 1, 140⟩]),
  (33, [⟨33, 1, 131, 16384, 3996, 4096⟩,
    ⟨33, 1, 138, 16384, 1, 115⟩,
    ⟨33, 1, 140, 16384, 2089, 2233⟩,
    ⟨33, 1903, 2048, 16384, 1, 114⟩,
    ⟨33, 1913, 2048, 16384, 3974, 4096⟩,
    ⟨33, 1918, 2048, 16384, 2048, 2179⟩]),
  (34, [⟨34, 1, 125, 16384, 1, 116⟩,
    ⟨34, 1, 139, 16384, 2011, 2161⟩,
    ⟨34, 1, 142, 16384, 3962, 4096⟩,
    ⟨34, 1901, 2048, 16384, 3982, 4096⟩,
    ⟨34, 1906, 2048, 16384, 1915, 2058⟩,
    ⟨34, 1907, 2048, 16384, 1, 133⟩]),
  (35, [⟨35, 1, 136, 16384, 2072, 2219⟩,
    ⟨35, 1, 137, 16384, 1, 113⟩,
    ⟨35, 1, 156, 16384, 3938, 4096⟩,
    ⟨35, 1886, 2048, 16384, 2121, 2263⟩,
    ⟨35, 1901, 2048, 16384, 1, 107⟩,
    ⟨35, 1913, 2048, 16384, 3987, 4096⟩]),
  (36, [⟨36, 1, 132, 16384, 2037, 2188⟩,
    ⟨36, 1, 150, 16384, 1, 131⟩,
    ⟨36, 1, 154, 16384, 3981, 4096⟩,
    ⟨36, 1907, 2048, 16384, 1998, 2142⟩,
    ⟨36, 1913, 2048, 16384, 3980, 4096⟩,
    ⟨36, 1915, 2048, 16384, 1, 131⟩]),
  (37, [⟨37, 1, 133, 16384, 1, 129⟩,
    ⟨37, 1, 136, 16384, 2026, 2171⟩,
    ⟨37, 1, 136, 16384, 3970, 4096⟩,
    ⟨37, 1872, 2048, 16384, 3941, 4096⟩,
    ⟨37, 1890, 2048, 16384, 1970, 2125⟩,
    ⟨37, 1899, 2048, 16384, 1, 135⟩]),
  (38, [⟨38, 1, 135, 16384, 3972, 4096⟩,
    ⟨38, 1, 142, 16384, 1984, 2121⟩,
    ⟨38, 1, 147, 16384, 1, 120⟩,
    ⟨38, 1897, 2048, 16384, 3981, 4096⟩,
    ⟨38, 1917, 2048, 16384, 1956, 2114⟩,
    ⟨38, 1927, 2048, 16384, 1, 102⟩]),
  (39, [⟨39, 1, 129, 16384, 2026, 2170⟩,
    ⟨39, 1, 143, 16384, 1, 129⟩,
    ⟨39, 1, 155, 16384, 3999, 4096⟩,
    ⟨39, 1891, 2048, 16384, 2001, 2153⟩,
    ⟨39, 1896, 2048, 16384, 1, 144⟩,
    ⟨39, 1902, 2048, 16384, 3980, 4096⟩]),
  (40, [⟨40, 1, 142, 16384, 3957, 4096⟩,
    ⟨40, 1, 148, 16384, 1, 113⟩,
    ⟨40, 1, 161, 16384, 2069, 2225⟩,
    ⟨40, 1895, 2048, 16384, 2000, 2142⟩,
    ⟨40, 1898, 2048, 16384, 3958, 4096⟩,
    ⟨40, 1906, 2048, 16384, 1, 113⟩]),
  (41, [⟨41, 1, 138, 16384, 1, 121⟩,
    ⟨41, 1, 138, 16384, 3976, 4096⟩,
    ⟨41, 1, 143, 16384, 1917, 2064⟩,
    ⟨41, 1886, 2048, 16384, 3969, 4096⟩,
    ⟨41, 1889, 2048, 16384, 1794, 1984⟩,
    ⟨41, 1913, 2048, 16384, 1, 130⟩]),
  (42, [⟨42, 1, 147, 16384, 2069, 2217⟩,
    ⟨42, 1, 154, 16384, 1, 117⟩,
    ⟨42, 1, 156, 16384, 3964, 4096⟩,
    ⟨42, 1902, 2048, 16384, 1, 137⟩,
    ⟨42, 1903, 2048, 16384, 1982, 2142⟩,
    ⟨42, 1910, 2048, 16384, 3974, 4096⟩]),
  (43, [⟨43, 1, 142, 16384, 1, 115⟩,
    ⟨43, 1, 149, 16384, 3951, 4096⟩,
    ⟨43, 1, 162, 16384, 2044, 2196⟩,
    ⟨43, 1901, 2048, 16384, 3961, 4096⟩,
    ⟨43, 1902, 2048, 16384, 1966, 2125⟩,
    ⟨43, 1909, 2048, 16384, 1, 111⟩]),
  (44, [⟨44, 1, 140, 16384, 2068, 2206⟩,
    ⟨44, 1, 152, 16384, 1, 126⟩,
    ⟨44, 1, 159, 16384, 3964, 4096⟩,
    ⟨44, 1888, 2048, 16384, 1, 128⟩,
    ⟨44, 1894, 2048, 16384, 3963, 4096⟩,
    ⟨44, 1904, 2048, 16384, 1974, 2119⟩]),
  (45, [⟨45, 1, 151, 16384, 3983, 4096⟩,
    ⟨45, 1, 153, 16384, 1, 134⟩,
    ⟨45, 1, 164, 16384, 1912, 2065⟩,
    ⟨45, 1876, 2048, 16384, 3966, 4096⟩,
    ⟨45, 1877, 2048, 16384, 1, 141⟩,
    ⟨45, 1895, 2048, 16384, 1886, 2041⟩]),
  (46, [⟨46, 1, 145, 16384, 3967, 4096⟩,
    ⟨46, 1, 159, 16384, 1, 127⟩,
    ⟨46, 1, 201, 16384, 2006, 2154⟩,
    ⟨46, 1894, 2048, 16384, 3955, 4096⟩,
    ⟨46, 1897, 2048, 16384, 1950, 2110⟩,
    ⟨46, 1899, 2048, 16384, 1, 100⟩]),
  (47, [⟨47, 1, 130, 16384, 1, 122⟩,
    ⟨47, 1, 134, 16384, 3980, 4096⟩,
    ⟨47, 1, 150, 16384, 1910, 2072⟩,
    ⟨47, 1893, 2048, 16384, 1, 120⟩,
    ⟨47, 1902, 2048, 16384, 3969, 4096⟩,
    ⟨47, 1913, 2048, 16384, 1880, 2030⟩]),
  (48, [⟨48, 1, 136, 16384, 1, 123⟩,
    ⟨48, 1, 143, 16384, 3988, 4096⟩,
    ⟨48, 1, 151, 16384, 2034, 2195⟩,
    ⟨48, 1888, 2048, 16384, 1, 121⟩,
    ⟨48, 1902, 2048, 16384, 4002, 4096⟩,
    ⟨48, 1904, 2048, 16384, 1974, 2120⟩]),
  (49, [⟨49, 1, 139, 16384, 3980, 4096⟩,
    ⟨49, 1, 141, 16384, 1, 117⟩,
    ⟨49, 1, 150, 16384, 1998, 2144⟩,
    ⟨49, 1891, 2048, 16384, 1, 129⟩,
    ⟨49, 1901, 2048, 16384, 3990, 4096⟩,
    ⟨49, 1905, 2048, 16384, 1865, 2015⟩]),
  (50, [⟨50, 1, 140, 16384, 1, 122⟩,
    ⟨50, 1, 142, 16384, 2123, 2280⟩,
    ⟨50, 1, 154, 16384, 3971, 4096⟩,
    ⟨50, 1895, 2048, 16384, 2066, 2209⟩,
    ⟨50, 1896, 2048, 16384, 3963, 4096⟩,
    ⟨50, 1899, 2048, 16384, 1, 121⟩]),
  (51, [⟨51, 1, 141, 16384, 1, 122⟩,
    ⟨51, 1, 148, 16384, 3964, 4096⟩,
    ⟨51, 1, 156, 16384, 2010, 2147⟩,
    ⟨51, 1903, 2048, 16384, 2038, 2178⟩,
    ⟨51, 1906, 2048, 16384, 1, 113⟩,
    ⟨51, 1913, 2048, 16384, 3980, 4096⟩]),
  (52, [⟨52, 1, 137, 16384, 1, 115⟩,
    ⟨52, 1, 142, 16384, 3962, 4096⟩,
    ⟨52, 1, 145, 16384, 1852, 2004⟩,
    ⟨52, 1893, 2048, 16384, 1, 131⟩,
    ⟨52, 1895, 2048, 16384, 3957, 4096⟩,
    ⟨52, 1908, 2048, 16384, 1822, 1954⟩]),
  (53, [⟨53, 1, 146, 16384, 1, 161⟩,
    ⟨53, 1, 150, 16384, 1895, 2038⟩,
    ⟨53, 1, 152, 16384, 3977, 4096⟩,
    ⟨53, 1903, 2048, 16384, 3965, 4096⟩,
    ⟨53, 1907, 2048, 16384, 1863, 2010⟩,
    ⟨53, 1909, 2048, 16384, 1, 123⟩]),
  (54, [⟨54, 1, 146, 16384, 1, 130⟩,
    ⟨54, 1, 161, 16384, 1967, 2123⟩,
    ⟨54, 1, 162, 16384, 3968, 4096⟩,
    ⟨54, 1895, 2048, 16384, 1, 134⟩,
    ⟨54, 1898, 2048, 16384, 1941, 2079⟩,
    ⟨54, 1904, 2048, 16384, 3974, 4096⟩]),
  (55, [⟨55, 1, 148, 16384, 3971, 4096⟩,
    ⟨55, 1, 149, 16384, 1966, 2126⟩,
    ⟨55, 1, 151, 16384, 1, 126⟩,
    ⟨55, 1898, 2048, 16384, 3964, 4096⟩,
    ⟨55, 1903, 2048, 16384, 1964, 2113⟩,
    ⟨55, 1908, 2048, 16384, 1, 145⟩]),
  (56, [⟨56, 1, 134, 16384, 1, 93⟩,
    ⟨56, 1, 140, 16384, 2063, 2217⟩,
    ⟨56, 1, 145, 16384, 3951, 4096⟩,
    ⟨56, 1902, 2048, 16384, 1955, 2095⟩,
    ⟨56, 1916, 2048, 16384, 1, 108⟩,
    ⟨56, 1919, 2048, 16384, 3973, 4096⟩]),
  (57, [⟨57, 1, 127, 16384, 2105, 2263⟩,
    ⟨57, 1, 140, 16384, 1, 108⟩,
    ⟨57, 1, 143, 16384, 3962, 4096⟩,
    ⟨57, 1895, 2048, 16384, 1968, 2127⟩,
    ⟨57, 1913, 2048, 16384, 1, 111⟩,
    ⟨57, 1917, 2048, 16384, 3974, 4096⟩]),
  (58, [⟨58, 1, 122, 16384, 3996, 4096⟩,
    ⟨58, 1, 131, 16384, 1834, 1969⟩,
    ⟨58, 1, 137, 16384, 1, 98⟩,
    ⟨58, 1900, 2048, 16384, 1, 124⟩,
    ⟨58, 1903, 2048, 16384, 4003, 4096⟩,
    ⟨58, 1905, 2048, 16384, 1967, 2093⟩]),
  (59, [⟨59, 1, 130, 16384, 1, 121⟩,
    ⟨59, 1, 139, 16384, 2120, 2278⟩,
    ⟨59, 1, 145, 16384, 3970, 4096⟩,
    ⟨59, 1894, 2048, 16384, 1966, 2125⟩,
    ⟨59, 1896, 2048, 16384, 1, 115⟩,
    ⟨59, 1899, 2048, 16384, 3968, 4096⟩]),
  (60, [⟨60, 1, 146, 16384, 1884, 2036⟩,
    ⟨60, 1, 151, 16384, 1, 138⟩,
    ⟨60, 1, 153, 16384, 3967, 4096⟩,
    ⟨60, 1882, 2048, 16384, 3963, 4096⟩,
    ⟨60, 1893, 2048, 16384, 1910, 2048⟩,
    ⟨60, 1897, 2048, 16384, 1, 138⟩]),
  (61, [⟨61, 1, 131, 16384, 1, 144⟩,
    ⟨61, 1, 143, 16384, 1873, 2033⟩,
    ⟨61, 1, 160, 16384, 3983, 4096⟩,
    ⟨61, 1883, 2048, 16384, 1880, 2033⟩,
    ⟨61, 1894, 2048, 16384, 3985, 4096⟩,
    ⟨61, 1908, 2048, 16384, 1, 121⟩]),
  (62, [⟨62, 1, 133, 16384, 1, 109⟩,
    ⟨62, 1, 139, 16384, 1914, 2060⟩,
    ⟨62, 1, 147, 16384, 3975, 4096⟩,
    ⟨62, 1905, 2048, 16384, 1, 135⟩,
    ⟨62, 1906, 2048, 16384, 1931, 2071⟩,
    ⟨62, 1908, 2048, 16384, 3977, 4096⟩])]

end Pizza
