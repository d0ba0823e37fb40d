import Verif.Avx.Tight
import Verif.Avx.InvSym

/-! # Bounds in the inverse NTT of the AVX2 code -/

namespace Verif.Avx
open Verif.Spec Verif.Proof Verif.Model

/-- Bounds of the absolute values in the network, by depth and position. -/
def ibTab : List (List Nat) :=
  [[], [2352, 2352, 2352, 2352, 2352, 2352, 2352, 2352, 2352, 2352, 2352, 2352, 2352, 2352, 2352, 2352, 2352, 2352, 2352, 2352, 2352, 2352, 2352, 2352, 2352, 2352, 2352, 2352,
    2352, 2352, 2352, 2352, 2352, 2352, 2352, 2352, 2352, 2352, 2352, 2352, 2352, 2352, 2352, 2352, 2352, 2352, 2352, 2352, 2352, 2352, 2352, 2352, 2352, 2352, 2352, 2352,
    2352, 2352, 2352, 2352, 2352, 2352, 2352, 2352, 2352, 2352, 2352, 2352, 2352, 2352, 2352, 2352, 2352, 2352, 2352, 2352, 2352, 2352, 2352, 2352, 2352, 2352, 2352, 2352,
    2352, 2352, 2352, 2352, 2352, 2352, 2352, 2352, 2352, 2352, 2352, 2352, 2352, 2352, 2352, 2352, 2352, 2352, 2352, 2352, 2352, 2352, 2352, 2352, 2352, 2352, 2352, 2352,
    2352, 2352, 2352, 2352, 2352, 2352, 2352, 2352, 2352, 2352, 2352, 2352, 2352, 2352, 2352, 2352, 2352, 2352, 2352, 2352, 2352, 2352, 2352, 2352, 2352, 2352, 2352, 2352,
    2352, 2352, 2352, 2352, 2352, 2352, 2352, 2352, 2352, 2352, 2352, 2352, 2352, 2352, 2352, 2352, 2352, 2352, 2352, 2352, 2352, 2352, 2352, 2352, 2352, 2352, 2352, 2352,
    2352, 2352, 2352, 2352, 2352, 2352, 2352, 2352, 2352, 2352, 2352, 2352, 2352, 2352, 2352, 2352, 2352, 2352, 2352, 2352, 2352, 2352, 2352, 2352, 2352, 2352, 2352, 2352,
    2352, 2352, 2352, 2352, 2352, 2352, 2352, 2352, 2352, 2352, 2352, 2352, 2352, 2352, 2352, 2352, 2352, 2352, 2352, 2352, 2352, 2352, 2352, 2352, 2352, 2352, 2352, 2352,
    2352, 2352, 2352, 2352, 2352, 2352, 2352, 2352, 2352, 2352, 2352, 2352, 2352, 2352, 2352, 2352, 2352, 2352, 2352, 2352, 2352, 2352, 2352, 2352, 2352, 2352, 2352, 2352,
    2352, 2352, 2352, 2352],
   [4704, 4704, 1751, 1751, 4704, 4704, 1766, 1766, 4704, 4704, 1761, 1761, 4704, 4704, 1730, 1730, 4704, 4704, 1728, 1728, 4704, 4704, 1734, 1734, 4704, 4704, 1684, 1684,
    4704, 4704, 1668, 1668, 4704, 4704, 1691, 1691, 4704, 4704, 1725, 1725, 4704, 4704, 1717, 1717, 4704, 4704, 1763, 1763, 4704, 4704, 1720, 1720, 4704, 4704, 1750, 1750,
    4704, 4704, 1767, 1767, 4704, 4704, 1739, 1739, 4704, 4704, 1764, 1764, 4704, 4704, 1749, 1749, 4704, 4704, 1679, 1679, 4704, 4704, 1722, 1722, 4704, 4704, 1749, 1749,
    4704, 4704, 1747, 1747, 4704, 4704, 1673, 1673, 4704, 4704, 1741, 1741, 4704, 4704, 1690, 1690, 4704, 4704, 1766, 1766, 4704, 4704, 1749, 1749, 4704, 4704, 1756, 1756,
    4704, 4704, 1706, 1706, 4704, 4704, 1706, 1706, 4704, 4704, 1735, 1735, 4704, 4704, 1717, 1717, 4704, 4704, 1667, 1667, 4704, 4704, 1672, 1672, 4704, 4704, 1686, 1686,
    4704, 4704, 1692, 1692, 4704, 4704, 1685, 1685, 4704, 4704, 1719, 1719, 4704, 4704, 1707, 1707, 4704, 4704, 1759, 1759, 4704, 4704, 1740, 1740, 4704, 4704, 1705, 1705,
    4704, 4704, 1756, 1756, 4704, 4704, 1712, 1712, 4704, 4704, 1672, 1672, 4704, 4704, 1737, 1737, 4704, 4704, 1718, 1718, 4704, 4704, 1679, 1679, 4704, 4704, 1778, 1778,
    4704, 4704, 1773, 1773, 4704, 4704, 1688, 1688, 4704, 4704, 1682, 1682, 4704, 4704, 1678, 1678, 4704, 4704, 1675, 1675, 4704, 4704, 1703, 1703, 4704, 4704, 1690, 1690,
    4704, 4704, 1670, 1670, 4704, 4704, 1768, 1768, 4704, 4704, 1719, 1719, 4704, 4704, 1745, 1745, 4704, 4704, 1716, 1716, 4704, 4704, 1701, 1701, 4704, 4704, 1688, 1688,
    4704, 4704, 1733, 1733],
   [9408, 9408, 3517, 3517, 1841, 1841, 1728, 1728, 9408, 9408, 3491, 3491, 1753, 1753, 1691, 1691, 9408, 9408, 3462, 3462, 1809, 1809, 1712, 1712, 9408, 9408, 3352, 3352,
    1724, 1724, 1682, 1682, 9408, 9408, 3416, 3416, 1757, 1757, 1688, 1688, 9408, 9408, 3480, 3480, 1865, 1865, 1731, 1731, 9408, 9408, 3470, 3470, 1800, 1800, 1712, 1712,
    9408, 9408, 3506, 3506, 1720, 1720, 1683, 1683, 9408, 9408, 3513, 3513, 1791, 1791, 1705, 1705, 9408, 9408, 3401, 3401, 1697, 1697, 1672, 1672, 9408, 9408, 3496, 3496,
    1857, 1857, 1734, 1734, 9408, 9408, 3414, 3414, 1677, 1677, 1667, 1667, 9408, 9408, 3456, 3456, 1778, 1778, 1700, 1700, 9408, 9408, 3505, 3505, 1697, 1697, 1672, 1672,
    9408, 9408, 3412, 3412, 1676, 1676, 1667, 1667, 9408, 9408, 3452, 3452, 1785, 1785, 1700, 1700, 9408, 9408, 3339, 3339, 1868, 1868, 1737, 1737, 9408, 9408, 3378, 3378,
    1680, 1680, 1668, 1668, 9408, 9408, 3404, 3404, 1822, 1822, 1720, 1720, 9408, 9408, 3466, 3466, 1884, 1884, 1738, 1738, 9408, 9408, 3445, 3445, 1759, 1759, 1692, 1692,
    9408, 9408, 3468, 3468, 1707, 1707, 1677, 1677, 9408, 9408, 3409, 3409, 1665, 1665, 1664, 1664, 9408, 9408, 3397, 3397, 1730, 1730, 1684, 1684, 9408, 9408, 3551, 3551,
    1871, 1871, 1738, 1738, 9408, 9408, 3370, 3370, 1703, 1703, 1675, 1675, 9408, 9408, 3353, 3353, 1864, 1864, 1731, 1731, 9408, 9408, 3393, 3393, 1843, 1843, 1726, 1726,
    9408, 9408, 3438, 3438, 1802, 1802, 1713, 1713, 9408, 9408, 3464, 3464, 1738, 1738, 1689, 1689, 9408, 9408, 3417, 3417, 1756, 1756, 1693, 1693, 9408, 9408, 3421, 3421,
    1830, 1830, 1723, 1723],
   [3329, 3329, 7008, 7008, 3594, 3594, 3419, 3419, 2110, 2110, 1823, 1823, 1744, 1744, 1732, 1732, 3329, 3329, 6814, 6814, 3533, 3533, 3394, 3394, 1719, 1719, 1681, 1681,
    1672, 1672, 1672, 1672, 3329, 3329, 6896, 6896, 3622, 3622, 3419, 3419, 1781, 1781, 1703, 1703, 1683, 1683, 1681, 1681, 3329, 3329, 6976, 6976, 3520, 3520, 3395, 3395,
    2099, 2099, 1818, 1818, 1739, 1739, 1732, 1732, 3329, 3329, 6914, 6914, 3488, 3488, 3377, 3377, 1830, 1830, 1718, 1718, 1694, 1694, 1694, 1694, 3329, 3329, 6910, 6910,
    3534, 3534, 3401, 3401, 1870, 1870, 1733, 1733, 1687, 1687, 1687, 1687, 3329, 3329, 6961, 6961, 3475, 3475, 3372, 3372, 1949, 1949, 1767, 1767, 1715, 1715, 1702, 1702,
    3329, 3329, 6864, 6864, 3461, 3461, 3367, 3367, 1857, 1857, 1728, 1728, 1693, 1693, 1693, 1693, 3329, 3329, 6717, 6717, 3548, 3548, 3405, 3405, 1701, 1701, 1676, 1676,
    1669, 1669, 1669, 1669, 3329, 3329, 6870, 6870, 3706, 3706, 3458, 3458, 2117, 2117, 1817, 1817, 1744, 1744, 1744, 1744, 3329, 3329, 6913, 6913, 3466, 3466, 3369, 3369,
    2069, 2069, 1805, 1805, 1736, 1736, 1736, 1736, 3329, 3329, 6806, 6806, 3395, 3395, 3348, 3348, 1895, 1895, 1743, 1743, 1699, 1699, 1699, 1699, 3329, 3329, 6921, 6921,
    3574, 3574, 3413, 3413, 1769, 1769, 1700, 1700, 1682, 1682, 1682, 1682, 3329, 3329, 6746, 6746, 3707, 3707, 3457, 3457, 1735, 1735, 1686, 1686, 1672, 1672, 1672, 1672,
    3329, 3329, 6902, 6902, 3540, 3540, 3402, 3402, 2033, 2033, 1796, 1796, 1732, 1732, 1720, 1720, 3329, 3329, 6838, 6838, 3586, 3586, 3416, 3416, 1819, 1819, 1716, 1716,
    1691, 1691, 1691, 1691],
   [6658, 6658, 13822, 13822, 7127, 7127, 6813, 6813, 3829, 3829, 3504, 3504, 3416, 3416, 3404, 3404, 1790, 1790, 1965, 1965, 1802, 1802, 1793, 1793, 1733, 1733, 1724, 1724,
    1724, 1724, 1724, 1724, 6658, 6658, 13872, 13872, 7142, 7142, 6814, 6814, 3880, 3880, 3521, 3521, 3422, 3422, 3413, 3413, 1804, 1804, 1964, 1964, 1820, 1820, 1804, 1804,
    1740, 1740, 1740, 1740, 1740, 1740, 1740, 1740, 6658, 6658, 13824, 13824, 7022, 7022, 6778, 6778, 3700, 3700, 3451, 3451, 3381, 3381, 3381, 3381, 1776, 1776, 1917, 1917,
    1778, 1778, 1777, 1777, 1726, 1726, 1725, 1725, 1725, 1725, 1725, 1725, 6658, 6658, 13825, 13825, 6936, 6936, 6739, 6739, 3806, 3806, 3495, 3495, 3408, 3408, 3395, 3395,
    1751, 1751, 1854, 1854, 1754, 1754, 1751, 1751, 1712, 1712, 1704, 1704, 1701, 1701, 1701, 1701, 6658, 6658, 13587, 13587, 7254, 7254, 6863, 6863, 3818, 3818, 3493, 3493,
    3413, 3413, 3413, 3413, 1679, 1679, 1698, 1698, 1680, 1680, 1680, 1680, 1674, 1674, 1667, 1667, 1667, 1667, 1667, 1667, 6658, 6658, 13719, 13719, 6861, 6861, 6717, 6717,
    3964, 3964, 3548, 3548, 3435, 3435, 3435, 3435, 1785, 1785, 1983, 1983, 1788, 1788, 1785, 1785, 1746, 1746, 1740, 1740, 1738, 1738, 1738, 1738, 6658, 6658, 13667, 13667,
    7281, 7281, 6870, 6870, 3504, 3504, 3386, 3386, 3354, 3354, 3354, 3354, 1726, 1726, 1790, 1790, 1731, 1731, 1726, 1726, 1691, 1691, 1691, 1691, 1691, 1691, 1691, 1691,
    6658, 6658, 13740, 13740, 7126, 7126, 6818, 6818, 3852, 3852, 3512, 3512, 3423, 3423, 3411, 3411, 1677, 1677, 1699, 1699, 1680, 1680, 1677, 1677, 1672, 1672, 1672, 1672,
    1672, 1672, 1672, 1672],
   [3329, 3329, 3329, 3329, 3329, 3329, 3329, 3329, 7709, 7709, 7025, 7025, 6838, 6838, 6817, 6817, 3594, 3594, 3929, 3929, 3622, 3622, 3597, 3597, 3473, 3473, 3464, 3464,
    3464, 3464, 3464, 3464, 1700, 1700, 1746, 1746, 1707, 1707, 1706, 1706, 1682, 1682, 1681, 1681, 1681, 1681, 1681, 1681, 1672, 1672, 1672, 1672, 1672, 1672, 1672, 1672,
    1671, 1671, 1671, 1671, 1671, 1671, 1671, 1671, 3329, 3329, 3329, 3329, 3329, 3329, 3329, 3329, 7506, 7506, 6946, 6946, 6789, 6789, 6776, 6776, 3527, 3527, 3771, 3771,
    3532, 3532, 3528, 3528, 3438, 3438, 3429, 3429, 3426, 3426, 3426, 3426, 1718, 1718, 1780, 1780, 1722, 1722, 1718, 1718, 1695, 1695, 1691, 1691, 1691, 1691, 1691, 1691,
    1676, 1676, 1680, 1680, 1676, 1676, 1676, 1676, 1676, 1676, 1676, 1676, 1676, 1676, 1676, 1676, 3329, 3329, 3329, 3329, 3329, 3329, 3329, 3329, 7782, 7782, 7041, 7041,
    6848, 6848, 6848, 6848, 3464, 3464, 3681, 3681, 3468, 3468, 3465, 3465, 3420, 3420, 3407, 3407, 3405, 3405, 3405, 3405, 1948, 1948, 2253, 2253, 1960, 1960, 1948, 1948,
    1828, 1828, 1804, 1804, 1804, 1804, 1804, 1804, 1732, 1732, 1739, 1739, 1732, 1732, 1732, 1732, 1727, 1727, 1727, 1727, 1727, 1727, 1727, 1727, 3329, 3329, 3329, 3329,
    3329, 3329, 3329, 3329, 7356, 7356, 6898, 6898, 6777, 6777, 6765, 6765, 3403, 3403, 3489, 3489, 3411, 3411, 3403, 3403, 3363, 3363, 3363, 3363, 3363, 3363, 3363, 3363,
    1963, 1963, 2284, 2284, 1978, 1978, 1963, 1963, 1821, 1821, 1810, 1810, 1810, 1810, 1810, 1810, 1724, 1724, 1739, 1739, 1739, 1739, 1724, 1724, 1724, 1724, 1724, 1724,
    1724, 1724, 1724, 1724],
   [6658, 6658, 6658, 6658, 6658, 6658, 6658, 6658, 15215, 15215, 13971, 13971, 13627, 13627, 13593, 13593, 7121, 7121, 7700, 7700, 7154, 7154, 7125, 7125, 6911, 6911, 6893, 6893,
    6890, 6890, 6890, 6890, 3418, 3418, 3526, 3526, 3429, 3429, 3424, 3424, 3377, 3377, 3372, 3372, 3372, 3372, 3372, 3372, 3348, 3348, 3352, 3352, 3348, 3348, 3348, 3348,
    3347, 3347, 3347, 3347, 3347, 3347, 3347, 3347, 1809, 1809, 1809, 1809, 1809, 1809, 1809, 1809, 2011, 2011, 1977, 1977, 1973, 1973, 1969, 1969, 1822, 1822, 1830, 1830,
    1822, 1822, 1822, 1822, 1822, 1822, 1822, 1822, 1822, 1822, 1822, 1822, 1738, 1738, 1738, 1738, 1738, 1738, 1738, 1738, 1738, 1738, 1738, 1738, 1738, 1738, 1738, 1738,
    1738, 1738, 1738, 1738, 1738, 1738, 1738, 1738, 1738, 1738, 1738, 1738, 1738, 1738, 1738, 1738, 6658, 6658, 6658, 6658, 6658, 6658, 6658, 6658, 15138, 15138, 13939, 13939,
    13625, 13625, 13613, 13613, 6867, 6867, 7170, 7170, 6879, 6879, 6868, 6868, 6783, 6783, 6770, 6770, 6768, 6768, 6768, 6768, 3911, 3911, 4537, 4537, 3938, 3938, 3911, 3911,
    3649, 3649, 3614, 3614, 3614, 3614, 3614, 3614, 3456, 3456, 3478, 3478, 3471, 3471, 3456, 3456, 3451, 3451, 3451, 3451, 3451, 3451, 3451, 3451, 1694, 1694, 1694, 1694,
    1694, 1694, 1694, 1694, 1739, 1739, 1739, 1739, 1724, 1724, 1724, 1724, 1694, 1694, 1694, 1694, 1694, 1694, 1694, 1694, 1694, 1694, 1694, 1694, 1694, 1694, 1694, 1694,
    1679, 1679, 1679, 1679, 1679, 1679, 1679, 1679, 1679, 1679, 1679, 1679, 1679, 1679, 1679, 1679, 1679, 1679, 1679, 1679, 1679, 1679, 1679, 1679, 1679, 1679, 1679, 1679,
    1679, 1679, 1679, 1679],
   [3329, 3329, 3329, 3329, 3329, 3329, 3329, 3329, 3329, 3329, 3329, 3329, 3329, 3329, 3329, 3329, 13988, 13988, 14870, 14870, 14033, 14033, 13993, 13993, 13694, 13694, 13663, 13663,
    13658, 13658, 13658, 13658, 7329, 7329, 8063, 8063, 7367, 7367, 7335, 7335, 7026, 7026, 6986, 6986, 6986, 6986, 6986, 6986, 6804, 6804, 6830, 6830, 6819, 6819, 6804, 6804,
    6798, 6798, 6798, 6798, 6798, 6798, 6798, 6798, 3503, 3503, 3503, 3503, 3503, 3503, 3503, 3503, 3750, 3750, 3716, 3716, 3697, 3697, 3693, 3693, 3516, 3516, 3524, 3524,
    3516, 3516, 3516, 3516, 3516, 3516, 3516, 3516, 3516, 3516, 3516, 3516, 3417, 3417, 3417, 3417, 3417, 3417, 3417, 3417, 3417, 3417, 3417, 3417, 3417, 3417, 3417, 3417,
    3417, 3417, 3417, 3417, 3417, 3417, 3417, 3417, 3417, 3417, 3417, 3417, 3417, 3417, 3417, 3417, 1806, 1806, 1806, 1806, 1806, 1806, 1806, 1806, 2004, 2004, 1980, 1980,
    1970, 1970, 1970, 1970, 1816, 1816, 1830, 1830, 1816, 1816, 1816, 1816, 1812, 1812, 1810, 1810, 1810, 1810, 1810, 1810, 1739, 1739, 1749, 1749, 1739, 1739, 1739, 1739,
    1733, 1733, 1733, 1733, 1733, 1733, 1733, 1733, 1731, 1731, 1731, 1731, 1731, 1731, 1731, 1731, 1731, 1731, 1731, 1731, 1731, 1731, 1731, 1731, 1702, 1702, 1702, 1702,
    1702, 1702, 1702, 1702, 1702, 1702, 1702, 1702, 1702, 1702, 1702, 1702, 1702, 1702, 1702, 1702, 1702, 1702, 1702, 1702, 1702, 1702, 1702, 1702, 1702, 1702, 1702, 1702,
    1702, 1702, 1702, 1702, 1702, 1702, 1702, 1702, 1702, 1702, 1702, 1702, 1702, 1702, 1702, 1702, 1702, 1702, 1702, 1702, 1702, 1702, 1702, 1702, 1702, 1702, 1702, 1702,
    1702, 1702, 1702, 1702]]

/-- Bound of the absolute values at depth `d`, position `i`. -/
def ibnd (d i : Nat) : Nat := (ibTab.getD d []).getD i 0

/-- The condition on the table at depth `d + 2`, position `i`. -/
def ibOk (d i : Nat) : Bool :=
  if i / 2 ^ (d + 1) % 2 = 0 then
    Nat.ble (ibnd (d + 1) i + ibnd (d + 1) (i + 2 ^ (d + 1))) 32767 &&
      Nat.ble (if redAt (d + 2) i then 3329 else ibnd (d + 1) i + ibnd (d + 1) (i + 2 ^ (d + 1))) (ibnd (d + 2) i)
  else Nat.ble (fqB (ibnd (d + 1) i + ibnd (d + 1) (i - 2 ^ (d + 1))) (Model.zetasList.getD (2 ^ (7 - d) - 1 - i / 2 ^ (d + 2)) 0).toInt) (ibnd (d + 2) i)

theorem ib_first : ∀ i, i < 256 → 2352 ≤ ibnd 1 i := by decide +kernel
theorem ib_ok : ∀ d, d < 7 → ∀ i, i < 256 → ibOk d i = true := by decide +kernel
theorem ibnd_lo {d i : Nat} (hd : d < 7) (hi : i < 256) (h : i / 2 ^ (d + 1) % 2 = 0) : ibnd (d + 1) i + ibnd (d + 1) (i + 2 ^ (d + 1)) ≤ 32767 ∧
    (if redAt (d + 2) i then 3329 else ibnd (d + 1) i + ibnd (d + 1) (i + 2 ^ (d + 1))) ≤ ibnd (d + 2) i := by
  have := ib_ok d hd i hi
  unfold ibOk at this
  rw [if_pos h, Bool.and_eq_true] at this
  exact ⟨Nat.le_of_ble_eq_true this.1, Nat.le_of_ble_eq_true this.2⟩

theorem ibnd_hi {d i : Nat} (hd : d < 7) (hi : i < 256) (h : i / 2 ^ (d + 1) % 2 ≠ 0) :
    fqB (ibnd (d + 1) i + ibnd (d + 1) (i - 2 ^ (d + 1))) (Model.zetasList.getD (2 ^ (7 - d) - 1 - i / 2 ^ (d + 2)) 0).toInt ≤ ibnd (d + 2) i := by
  have := ib_ok d hd i hi
  unfold ibOk at this
  rw [if_neg h] at this
  exact Nat.le_of_ble_eq_true this

attribute [local irreducible] fqB in
theorem fq1441 (a : W) : -2352 ≤ (fqW a 1441).toInt ∧ (fqW a 1441).toInt ≤ 2352 := by
  have hb := w_bounds a
  by_cases h : a.toInt = -32768
  · have : a = -32768 := BitVec.eq_of_toInt_eq (by rw [h]; decide)
    rw [this]; decide
  · have h1 := fqB_bound (a := a) (b := 1441) (A := 32767) ⟨by omega, by omega⟩
    have h2 : fqB 32767 (BitVec.toInt (1441 : W)) ≤ 2352 := by decide +kernel
    omega

theorem ibnd_out : ∀ i, i < 256 → ibnd 8 i ≤ 14870 := by decide +kernel

end Verif.Avx
