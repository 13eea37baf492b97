import Mathlib.Init

/-!
# Tables of the tidal mass loss models

Generated by `tools/gen_tables.py` from the python sources; every entry is 1000 times the number in
the source (all of them have at most three decimals).
-/

set_option maxRecDepth 100000

namespace PyHalo.MassLossTables

/-- `a_fit`, `galacticus_truncation/johnsonSUparams.py` 3-377. -/
def aFit : List Nat := [
  3330, 3340, 3351, 3362, 3372, 3383, 3394, 3404, 3390, 3375, 3361, 3347, 3332, 3318, 3303,
  3289, 3299, 3310, 3321, 3317, 3309, 3301, 3293, 3311, 3329, 3347, 3358, 3344, 3329, 3315,
  3263, 3242, 3234, 3227, 3219, 3211, 3203, 3196, 3213, 3231, 3249, 3267, 3285, 3303, 3317,
  3287, 3266, 3245, 3224, 3203, 3182, 3161, 3159, 3174, 3188, 3202, 3217, 3231, 3245, 3252,
  3057, 3064, 3070, 3077, 3084, 3090, 3095, 3099, 3117, 3135, 3139, 3142, 3145, 3149, 3152,
  3165, 3186, 3190, 3195, 3199, 3204, 3208, 3212, 3209, 3227, 3245, 3263, 3281, 3299, 3316,
  3147, 3170, 3193, 3216, 3240, 3256, 3261, 3265, 3259, 3252, 3245, 3239, 3240, 3258, 3276,
  3175, 3198, 3221, 3244, 3268, 3291, 3305, 3308, 3286, 3272, 3265, 3259, 3252, 3245, 3239,
  3278, 3301, 3319, 3322, 3325, 3328, 3331, 3334, 3312, 3289, 3267, 3245, 3223, 3212, 3206,
  3291, 3265, 3239, 3241, 3244, 3247, 3250, 3253, 3231, 3209, 3186, 3164, 3144, 3173, 3203,
  3227, 3201, 3175, 3150, 3124, 3098, 3077, 3080, 3058, 3078, 3108, 3137, 3166, 3196, 3225,
  3236, 3210, 3185, 3159, 3133, 3126, 3130, 3134, 3163, 3192, 3222, 3251, 3241, 3208, 3175,
  3278, 3265, 3269, 3273, 3277, 3281, 3285, 3289, 3292, 3259, 3226, 3192, 3159, 3126, 3092,
  3215, 3230, 3245, 3260, 3266, 3270, 3274, 3278, 3302, 3326, 3350, 3329, 3295, 3262, 3229,
  3134, 3148, 3163, 3178, 3193, 3208, 3222, 3237, 3261, 3285, 3309, 3333, 3357, 3381, 3405,
  2963, 2962, 2962, 2966, 2977, 2987, 2998, 3009, 2994, 2980, 2966, 2951, 3001, 3098, 3196,
  2968, 2978, 2989, 3000, 2996, 2971, 2935, 2898, 2923, 2947, 2969, 2980, 2966, 2951, 2937,
  3091, 3265, 3362, 3354, 3347, 3339, 3331, 3312, 3126, 2953, 2871, 2889, 2907, 2925, 2939,
  3350, 3329, 3308, 3287, 3273, 3170, 3134, 3227, 3191, 3154, 3139, 3154, 3168, 3183, 3189,
  3079, 3085, 3092, 3099, 3105, 3153, 3231, 3124, 3174, 3260, 3311, 3314, 3318, 3321, 3325,
  3266, 3343, 3413, 3387, 3334, 3338, 3343, 3461, 3547, 3655, 3658, 3573, 3591, 3608, 3626,
  3553, 3576, 3599, 3646, 3695, 3685, 3558, 3738, 3900, 4062, 4153, 4146, 4069, 3855, 3641,
  3452, 3475, 3498, 3521, 3545, 3583, 3580, 3513, 3675, 3837, 3999, 4161, 4160, 4153, 4146,
  3455, 3478, 3496, 3499, 3502, 3465, 3399, 3332, 3310, 3288, 3327, 3489, 3651, 3813, 3863,
  3468, 3442, 3416, 3418, 3421, 3384, 3318, 3252, 3229, 3207, 3398, 3724, 3795, 3681, 3642,
  3997, 3828, 3744, 3718, 3692, 3666, 3634, 3567, 3893, 3972, 4001, 4031, 3977, 3862, 3748,
  4323, 4297, 4271, 4245, 4219, 4096, 3898, 4028, 4057, 4058, 3943, 3828, 4060, 4502, 4922,
  4364, 4351, 4355, 4359, 4363, 4251, 4053, 3929, 4355, 4775, 4897, 4940, 4907, 4873, 4840,
  4302, 4317, 4331, 4346, 4352, 4240, 4042, 5177, 5173, 5120, 5067, 5044, 5029, 5010, 4976,
  4835, 4927, 5018, 5077, 5092, 5107, 5122, 5136, 5160, 5184, 5208, 5232, 5212, 5159, 5106,
  2597, 2596, 2595, 2595, 2594, 2594, 2603, 2613, 2599, 2602, 2699, 2796, 2893, 2991, 3088,
  2623, 2622, 2629, 2640, 2613, 2576, 2738, 2912, 2726, 2552, 2576, 2593, 2578, 2604, 2701,
  2770, 2944, 3118, 3292, 3466, 3486, 3478, 3460, 3273, 3087, 2901, 2715, 2555, 2546, 2561,
  3412, 3391, 3364, 3258, 3239, 3221, 3202, 3295, 3259, 3222, 3186, 3149, 3113, 3120, 3127,
  3364, 3371, 3388, 3466, 3495, 3252, 3010, 2767, 2791, 2814, 2838, 2914, 3000, 3016, 3020,
  3211, 3289, 3367, 3445, 3522, 3580, 3480, 3595, 3681, 3767, 3853, 3939, 4080, 3923, 3936,
  3871, 3934, 3983, 4033, 4082, 4131, 4031, 4147, 4271, 4433, 4595, 4757, 4919, 4763, 4548,
  3858, 3881, 3908, 3957, 4007, 4056, 4053, 3986, 4148, 4310, 4472, 4634, 4796, 4959, 5054,
  3632, 3655, 3663, 3597, 3530, 3464, 3398, 3331, 3476, 3638, 3800, 3908, 3934, 3960, 3986,
  3725, 3672, 3646, 3582, 3515, 3449, 3383, 3316, 3642, 3900, 3785, 3687, 3713, 3738, 3764,
  5260, 5091, 4922, 4753, 4586, 4560, 4527, 4461, 4786, 4844, 4729, 4615, 4500, 4385, 4270,
  5582, 5413, 5244, 5142, 5117, 4984, 4786, 4823, 5127, 5012, 4897, 4782, 4668, 5025, 5467,
  5451, 5437, 5411, 5213, 5014, 4816, 4618, 4495, 4920, 5346, 5771, 6197, 6388, 6621, 6588,
  5713, 5804, 5847, 5862, 5708, 5510, 5312, 6070, 6495, 6894, 6841, 6788, 6735, 6714, 6699,
  6537, 6629, 6720, 6812, 6903, 6994, 7021, 7036, 7060, 7072, 7019, 6966, 6912, 6859, 6806,
  2368, 2327, 2326, 2326, 2325, 2324, 2324, 2323, 2377, 2474, 2571, 2668, 2766, 2863, 2960,
  2382, 2556, 2730, 2905, 2970, 2969, 2969, 2930, 3017, 3114, 3211, 3202, 3016, 2829, 2643,
  2562, 2626, 2800, 2974, 3148, 3322, 3496, 3477, 3486, 3362, 3176, 2989, 2803, 2617, 2431,
  3452, 3314, 3276, 3257, 3238, 3219, 3200, 3265, 3245, 3208, 3172, 3136, 3099, 3063, 3031,
  3504, 3547, 3625, 3516, 3273, 3030, 2788, 2545, 2569, 2592, 2616, 2639, 2689, 2775, 2815,
  3164, 3242, 3319, 3397, 3475, 3553, 3623, 3619, 3705, 3791, 3877, 3963, 4049, 4157, 4196,
  3824, 3901, 3977, 4026, 4075, 4125, 4174, 4170, 4256, 4348, 4510, 4672, 4834, 4996, 5035,
  4139, 4080, 4077, 4126, 4176, 4225, 4274, 4323, 4485, 4647, 4809, 4971, 5133, 5234, 5265,
  3905, 3846, 3780, 3714, 3647, 3581, 3602, 3651, 3813, 3942, 3968, 3994, 4020, 4046, 4077,
  4621, 4562, 4496, 4430, 4363, 4293, 4124, 3955, 3783, 3668, 3688, 3714, 3740, 3766, 3792,
  6156, 6097, 5945, 5776, 5607, 5438, 5269, 5100, 4927, 4813, 4698, 4583, 4469, 4378, 4404,
  6375, 6205, 6036, 5867, 5700, 5534, 5336, 5138, 5369, 5795, 6220, 6126, 6012, 5897, 5782,
  6156, 5998, 5800, 5602, 5404, 5206, 5008, 4810, 5041, 5467, 5892, 6318, 6743, 7169, 7503,
  6829, 6920, 7012, 7057, 6873, 6675, 6477, 6279, 6689, 7115, 7540, 7866, 7813, 7760, 7707,
  7653, 7745, 7836, 7928, 8019, 8110, 8202, 8201, 8164, 8110, 8057, 8004, 7951, 7898, 7844,
  2488, 2390, 2304, 2303, 2303, 2302, 2302, 2301, 2292, 2296, 2393, 2490, 2587, 2685, 2782,
  2462, 2636, 2793, 2793, 2792, 2792, 2711, 2619, 2690, 2764, 2861, 2959, 3056, 2897, 2711,
  2642, 2551, 2489, 2663, 2837, 3011, 3186, 3167, 3237, 3296, 3243, 3057, 2871, 2685, 2498,
  3252, 3244, 3213, 3079, 3060, 3041, 3022, 3141, 3105, 3068, 3032, 2995, 2959, 2935, 2912,
  3278, 3271, 3273, 3351, 3393, 3150, 2908, 2665, 2689, 2712, 2736, 2815, 2901, 2888, 2864,
  3135, 3212, 3290, 3368, 3446, 3502, 3337, 3361, 3447, 3533, 3619, 3705, 3849, 3753, 3839,
  3794, 3857, 3906, 3955, 4004, 4053, 3886, 3912, 4040, 4202, 4364, 4526, 4688, 4588, 4454,
  4054, 4006, 4011, 4060, 4110, 4159, 4208, 4190, 4307, 4469, 4631, 4793, 4955, 5062, 5101,
  3869, 3821, 3771, 3705, 3638, 3572, 3593, 3642, 3804, 3933, 3959, 3985, 4011, 4049, 4088,
  4585, 4537, 4487, 4421, 4355, 4284, 4115, 3946, 3504, 3455, 3476, 3502, 3528, 3554, 3580,
  5941, 5893, 5745, 5575, 5406, 5237, 5068, 4938, 4649, 4600, 4485, 4371, 4256, 4165, 4191,
  5972, 5803, 5634, 5493, 5378, 5212, 5014, 4816, 4775, 4787, 5212, 5638, 5799, 5684, 5570,
  5812, 5718, 5639, 5440, 5242, 5044, 4846, 4648, 4801, 5227, 5652, 6078, 6503, 6803, 6815,
  6458, 6550, 6491, 6362, 6178, 5980, 5782, 5584, 5973, 6365, 6791, 7117, 7064, 7011, 6957,
  7283, 7374, 7466, 7557, 7648, 7740, 7635, 7506, 7490, 7470, 7416, 7363, 7310, 7257, 7204,
  2607, 2510, 2413, 2316, 2280, 2280, 2279, 2279, 2270, 2261, 2253, 2312, 2409, 2506, 2604,
  2541, 2616, 2616, 2615, 2582, 2491, 2400, 2309, 2379, 2450, 2521, 2609, 2706, 2803, 2778,
  2722, 2630, 2539, 2448, 2527, 2701, 2875, 2856, 2927, 2997, 3068, 3070, 2938, 2752, 2566,
  3057, 3050, 3042, 3034, 2890, 2863, 2844, 2963, 2927, 2890, 2854, 2823, 2801, 2779, 2755,
  3052, 3044, 3037, 3030, 3077, 3155, 3028, 2785, 2809, 2855, 2941, 2987, 2962, 2937, 2913,
  3105, 3183, 3261, 3332, 3294, 3157, 3079, 3103, 3189, 3275, 3379, 3434, 3409, 3495, 3581,
  3645, 3695, 3744, 3793, 3786, 3650, 3456, 3535, 3595, 3755, 3917, 4079, 4140, 4007, 3873,
  3852, 3804, 3809, 3858, 3908, 3957, 3865, 3760, 3819, 3888, 4050, 4212, 4374, 4481, 4520,
  3832, 3785, 3737, 3689, 3630, 3563, 3584, 3633, 3795, 3924, 3950, 3981, 4020, 4060, 4099,
  4549, 4501, 4453, 4405, 4346, 4276, 4106, 3937, 3463, 3423, 3459, 3490, 3516, 3542, 3568,
  5539, 5491, 5342, 5173, 5004, 4845, 4731, 4616, 4327, 4286, 4246, 4158, 4043, 3953, 3979,
  5570, 5401, 5285, 5171, 5056, 4890, 4692, 4493, 4453, 4413, 4372, 4630, 5055, 5472, 5357,
  5475, 5381, 5316, 5252, 5102, 4904, 4706, 4508, 4661, 5086, 5512, 5937, 6042, 6054, 6065,
  6091, 5962, 5833, 5704, 5540, 5342, 5144, 4946, 5277, 5666, 6055, 6367, 6314, 6261, 6208,
  6912, 7004, 7095, 7186, 7198, 7069, 6940, 6811, 6795, 6778, 6762, 6722, 6669, 6616, 6563,
  2727, 2630, 2533, 2436, 2338, 2257, 2257, 2256, 2248, 2239, 2230, 2222, 2231, 2328, 2425,
  2650, 2552, 2548, 2547, 2475, 2384, 2293, 2202, 2272, 2343, 2414, 2468, 2477, 2575, 2672,
  2801, 2710, 2619, 2528, 2437, 2390, 2564, 2545, 2616, 2687, 2757, 2828, 2881, 2820, 2633,
  2863, 2855, 2848, 2840, 2832, 2789, 2666, 2785, 2749, 2712, 2688, 2666, 2644, 2622, 2598,
  2825, 2818, 2811, 2803, 2796, 2803, 2881, 2905, 2980, 3066, 3060, 3036, 3011, 2986, 2962,
  3076, 3154, 3212, 3058, 2976, 2899, 2821, 2846, 2931, 3071, 2987, 3065, 3151, 3237, 3324,
  3443, 3492, 3542, 3462, 3356, 3220, 3026, 3105, 3165, 3224, 3336, 3498, 3559, 3426, 3330,
  3649, 3602, 3607, 3656, 3647, 3541, 3435, 3329, 3389, 3449, 3508, 3631, 3793, 3900, 3939,
  3796, 3749, 3701, 3653, 3605, 3554, 3575, 3625, 3787, 3915, 3952, 3992, 4031, 4071, 4110,
  4512, 4465, 4417, 4369, 4321, 4267, 4098, 3929, 3455, 3414, 3451, 3490, 3527, 3553, 3579,
  5136, 5089, 4940, 4771, 4638, 4523, 4409, 4294, 4005, 3964, 3924, 3884, 3831, 3740, 3766,
  5188, 5073, 4959, 4844, 4729, 4624, 4426, 4228, 4187, 4147, 4106, 4066, 4316, 4741, 4978,
  5138, 5044, 4979, 4915, 4850, 4763, 4565, 4367, 4520, 4946, 5269, 5281, 5292, 5304, 5316,
  5754, 5625, 5496, 5367, 5289, 5202, 5004, 4806, 4818, 4971, 5359, 5664, 5642, 5588, 5535,
  6542, 6633, 6724, 6632, 6503, 6374, 6245, 6116, 6099, 6083, 6067, 6051, 6028, 5975, 5922,
  2847, 2750, 2653, 2556, 2458, 2361, 2264, 2234, 2225, 2217, 2208, 2199, 2191, 2182, 2247,
  2770, 2672, 2575, 2525, 2453, 2361, 2270, 2179, 2250, 2321, 2392, 2446, 2437, 2429, 2494,
  2824, 2758, 2667, 2576, 2485, 2394, 2303, 2262, 2332, 2403, 2474, 2545, 2616, 2686, 2654,
  2669, 2661, 2653, 2645, 2638, 2630, 2622, 2607, 2575, 2553, 2531, 2509, 2487, 2465, 2441,
  2774, 2766, 2759, 2752, 2744, 2737, 2660, 2690, 2776, 2862, 2838, 2813, 2788, 2764, 2739,
  3027, 3017, 2874, 2796, 2719, 2641, 2564, 2567, 2673, 2635, 2721, 2808, 2894, 2980, 3066,
  3241, 3243, 3137, 3032, 2926, 2790, 2671, 2675, 2734, 2794, 2854, 2917, 2978, 2986, 3073,
  3447, 3400, 3405, 3322, 3216, 3111, 3005, 2899, 2959, 3018, 3078, 3138, 3212, 3319, 3358,
  3641, 3593, 3545, 3497, 3450, 3402, 3418, 3312, 3372, 3498, 3537, 3577, 3616, 3656, 3695,
  4142, 4095, 4047, 3999, 3952, 3899, 3749, 3634, 3446, 3405, 3442, 3481, 3521, 3560, 3591,
  4734, 4686, 4545, 4431, 4316, 4201, 4087, 3972, 3784, 3743, 3703, 3663, 3622, 3595, 3626,
  4851, 4736, 4622, 4507, 4392, 4309, 4244, 4087, 4047, 4006, 3966, 3926, 4175, 4217, 4229,
  4801, 4707, 4642, 4578, 4513, 4449, 4384, 4227, 4380, 4507, 4519, 4531, 4543, 4555, 4566,
  5417, 5288, 5159, 5030, 4952, 4887, 4823, 4665, 4677, 4689, 4701, 4969, 4952, 4936, 4894,
  6171, 6195, 6066, 5937, 5808, 5679, 5550, 5420, 5404, 5388, 5372, 5356, 5339, 5323, 5281,
  3157, 3060, 2962, 2865, 2768, 2670, 2573, 2501, 2875, 2869, 2860, 2852, 2843, 2834, 2826,
  2937, 2846, 2755, 2662, 2565, 2468, 2372, 2446, 2517, 2588, 2659, 2792, 3090, 3081, 3072,
  2843, 2777, 2686, 2595, 2504, 2413, 2322, 2234, 2305, 2376, 2446, 2517, 2588, 2657, 2960,
  2668, 2630, 2622, 2614, 2607, 2599, 2591, 2584, 2882, 2861, 2839, 2817, 2795, 2773, 2751,
  2808, 2757, 2679, 2672, 2665, 2657, 2650, 2643, 2618, 2593, 2569, 2544, 2519, 2605, 2621,
  2979, 2928, 2851, 2773, 2696, 2618, 2541, 2439, 2525, 2611, 2697, 2783, 2870, 2931, 2837,
  3194, 3142, 3065, 2969, 2863, 2757, 2652, 2546, 2632, 2701, 2760, 2820, 2879, 2938, 2779,
  3320, 3284, 3178, 3073, 2967, 2861, 2756, 2676, 2644, 2693, 2753, 2813, 2872, 2932, 2991,
  3513, 3477, 3372, 3280, 3232, 3184, 3137, 3089, 3057, 3096, 3135, 3175, 3214, 3269, 3328,
  3761, 3883, 3770, 3656, 3605, 3557, 3509, 3462, 3429, 3468, 3508, 3547, 3584, 3543, 3503,
  4353, 4475, 4362, 4247, 4133, 4018, 3903, 3800, 3767, 3740, 3700, 3659, 3619, 3578, 3538,
  4501, 4600, 4487, 4372, 4258, 4143, 4059, 3995, 3902, 3862, 3822, 3814, 3886, 3935, 3947,
  4470, 4550, 4457, 4392, 4328, 4263, 4199, 4134, 4156, 4225, 4237, 4249, 4261, 4272, 4284,
  4983, 5166, 5039, 4909, 4780, 4702, 4637, 4573, 4557, 4540, 4524, 4530, 4542, 4554, 4663,
  5721, 5742, 5613, 5484, 5355, 5226, 5097, 4968, 4952, 4935, 4919, 4903, 4887, 4872, 5153,
  3636, 3538, 3441, 3344, 3247, 3172, 3099, 3027, 3401, 3775, 4116, 4108, 4099, 4090, 4082,
  3147, 3055, 2957, 2860, 2763, 2823, 2897, 2972, 3043, 3114, 3184, 3318, 3692, 4066, 4328,
  3052, 2987, 2922, 2854, 2763, 2672, 2581, 2493, 2564, 2634, 2705, 2776, 2620, 2444, 2747,
  2859, 2807, 2754, 2720, 2713, 2705, 2697, 2690, 2993, 3296, 3567, 3543, 3521, 3499, 3477,
  2934, 2883, 2831, 2802, 2795, 2788, 2781, 2773, 2749, 2724, 2699, 2675, 2596, 2612, 2628,
  3070, 3019, 2968, 2914, 2837, 2759, 2682, 2580, 2666, 2752, 2838, 2904, 2786, 3088, 3390,
  3239, 3188, 3136, 3110, 3004, 2898, 2792, 2687, 2746, 2806, 2866, 2925, 2771, 2612, 2454,
  3260, 3224, 3207, 3197, 3091, 2986, 2880, 2774, 2784, 2760, 2819, 2879, 2939, 2885, 2701,
  3417, 3412, 3381, 3338, 3233, 3146, 3098, 3051, 3183, 3071, 2959, 2999, 3038, 3093, 3153,
  3510, 3521, 3643, 3745, 3630, 3519, 3471, 3423, 3281, 3306, 3332, 3372, 3408, 3368, 3327,
  3991, 4113, 4038, 3924, 3809, 3694, 3663, 3661, 3619, 3637, 3648, 3608, 3567, 3527, 3487,
  4138, 4238, 4337, 4356, 4241, 4127, 4012, 3795, 3755, 3742, 3753, 3764, 3865, 3974, 4056,
  4199, 4251, 4303, 4368, 4278, 4214, 4149, 4085, 4107, 4216, 4325, 4385, 4397, 4409, 4420,
  4462, 4644, 4827, 4983, 4854, 4725, 4596, 4524, 4507, 4491, 4475, 4481, 4582, 4691, 4800,
  5200, 5220, 5241, 5249, 5120, 4991, 4861, 4732, 4716, 4700, 4684, 4667, 4923, 5204, 5485,
  4115, 4017, 3920, 3843, 3770, 3698, 3625, 3553, 3927, 4301, 4675, 5049, 5355, 5347, 5338,
  3502, 3404, 3307, 3230, 3274, 3349, 3337, 3272, 3343, 3413, 3280, 3218, 3592, 3966, 4340,
  3262, 3197, 3131, 3066, 3000, 2930, 2839, 2752, 2822, 2893, 2760, 2583, 2407, 2230, 2533,
  3051, 2998, 2946, 2893, 2841, 2811, 2803, 2796, 3099, 3402, 3705, 4008, 4249, 4225, 4203,
  3098, 3047, 2995, 2965, 2934, 2907, 2900, 2892, 2868, 2843, 2770, 2686, 2603, 2619, 2635,
  3161, 3110, 3059, 3008, 2956, 2900, 2823, 2721, 2807, 2875, 2755, 3037, 3339, 3641, 3944,
  3179, 3128, 3076, 3059, 3058, 3039, 2933, 2827, 2887, 2946, 2805, 2621, 2445, 2287, 2204,
  3200, 3164, 3147, 3146, 3145, 3126, 3020, 2915, 2925, 2900, 2960, 2929, 2745, 2560, 2376,
  3296, 3292, 3287, 3282, 3248, 3199, 3093, 3012, 3144, 3112, 3079, 2960, 2863, 2917, 2977,
  3390, 3385, 3380, 3403, 3525, 3605, 3490, 3385, 3236, 3203, 3183, 3208, 3233, 3192, 3152,
  3629, 3751, 3676, 3561, 3520, 3518, 3516, 3514, 3471, 3489, 3505, 3521, 3527, 3487, 3447,
  3798, 3876, 3975, 3994, 3879, 3787, 3785, 3783, 3682, 3693, 3784, 3893, 3984, 4000, 4016,
  3928, 3980, 4032, 4083, 4135, 4185, 4100, 4036, 4057, 4166, 4275, 4384, 4493, 4545, 4556,
  4152, 4204, 4306, 4489, 4638, 4632, 4503, 4374, 4357, 4341, 4570, 4714, 4823, 4932, 5041,
  4678, 4699, 4720, 4740, 4761, 4755, 4626, 4497, 4481, 4464, 4693, 4974, 5255, 5535, 5816,
  4593, 4514, 4442, 4369, 4296, 4224, 4151, 4078, 4452, 4827, 5201, 5575, 5949, 6323, 6594,
  3981, 3901, 3829, 3756, 3727, 3661, 3596, 3531, 3420, 3244, 3067, 3004, 3378, 3752, 4127,
  3465, 3399, 3334, 3269, 3203, 3138, 3072, 3010, 2900, 2723, 2547, 2370, 2193, 2016, 2319,
  3242, 3190, 3137, 3085, 3032, 2980, 2927, 2902, 3205, 3508, 3811, 4114, 4417, 4720, 4774,
  3262, 3211, 3160, 3129, 3098, 3067, 3036, 3011, 2944, 2860, 2777, 2693, 2610, 2835, 3137,
  3205, 3154, 3102, 3051, 3000, 2949, 2897, 2862, 2746, 2986, 3288, 3590, 3892, 4195, 4497,
  3119, 3068, 3016, 2998, 2998, 2997, 2996, 2967, 2849, 2664, 2480, 2295, 2153, 2455, 2757,
  3103, 3098, 3087, 3086, 3085, 3085, 3084, 3055, 3048, 2972, 2788, 2604, 2419, 2235, 2051,
  3176, 3171, 3166, 3162, 3157, 3151, 3142, 3113, 3106, 3073, 3041, 3008, 2974, 2869, 2685,
  3270, 3265, 3260, 3255, 3251, 3276, 3247, 3245, 3197, 3165, 3133, 3100, 3085, 3101, 3102,
  3381, 3388, 3377, 3375, 3373, 3370, 3368, 3366, 3324, 3341, 3357, 3374, 3390, 3406, 3407,
  3526, 3578, 3630, 3644, 3642, 3639, 3637, 3635, 3704, 3813, 3912, 3928, 3944, 3960, 3976,
  3657, 3709, 3760, 3812, 3864, 3915, 3967, 3970, 4039, 4148, 4257, 4366, 4475, 4584, 4663,
  3881, 3933, 3984, 4036, 4117, 4137, 4158, 4138, 4339, 4620, 4901, 5046, 5155, 5264, 5373,
  4157, 4178, 4198, 4219, 4240, 4260, 4281, 4261, 4462, 4743, 5024, 5305, 5586, 5867, 6148,
  5479, 5407, 5334, 5261, 5153, 5018, 4883, 4748, 4680, 4611, 4543, 4660, 5034, 5408, 5782,
  4874, 4762, 4627, 4493, 4387, 4322, 4256, 4430, 4688, 5062, 5436, 5559, 5501, 5443, 5384,
  4335, 4263, 4190, 4126, 4068, 4003, 3938, 3910, 3733, 3556, 3658, 3752, 3693, 3635, 3577,
  3972, 3920, 3867, 3815, 3762, 3710, 3658, 3645, 3837, 4140, 4443, 4484, 4335, 4186, 4127,
  3881, 3850, 3807, 3756, 3671, 3562, 3425, 3173, 3475, 3777, 3694, 3457, 3109, 2953, 2934,
  3476, 3469, 3417, 3366, 3321, 3279, 3238, 3142, 3132, 3122, 3110, 3053, 3168, 3470, 3773,
  3369, 3332, 3322, 3322, 3321, 3306, 3265, 3075, 3059, 3042, 3025, 2938, 2778, 2664, 2550,
  3223, 3186, 3149, 3144, 3143, 3142, 3144, 3148, 3126, 3107, 3090, 3073, 3057, 2878, 2693,
  3178, 3177, 3176, 3171, 3171, 3176, 3180, 3184, 3152, 3123, 3101, 3082, 3065, 3062, 3063,
  3272, 3270, 3267, 3263, 3263, 3267, 3272, 3276, 3244, 3190, 3124, 3105, 3118, 3125, 3125,
  3317, 3315, 3313, 3311, 3310, 3310, 3311, 3315, 3249, 3249, 3263, 3277, 3291, 3307, 3324,
  3410, 3407, 3404, 3401, 3398, 3396, 3394, 3394, 3408, 3424, 3440, 3456, 3475, 3496, 3517,
  3483, 3499, 3515, 3531, 3528, 3571, 3622, 3674, 3783, 3892, 3985, 4004, 4025, 4046, 4068,
  3535, 3582, 3648, 3714, 3761, 3782, 3803, 3830, 4074, 4355, 4636, 4766, 4787, 4808, 4829,
  3757, 3802, 3847, 3891, 3926, 3947, 3967, 3988, 4031, 4074, 4117, 4260, 4541, 4822, 5102,
  5625, 6364, 6266, 6132, 5997, 5862, 5727, 5593, 5524, 5456, 5387, 5319, 5250, 5183, 5134,
  5235, 5808, 5763, 5691, 5606, 5471, 5336, 5201, 5143, 5085, 5025, 4956, 4888, 4824, 4870,
  4696, 5270, 5225, 5153, 5080, 5008, 4935, 4883, 4825, 4767, 4709, 4651, 4589, 4447, 4448,
  4287, 4414, 4362, 4309, 4257, 4205, 4152, 4427, 4325, 4176, 4027, 3879, 3730, 3581, 3528,
  3904, 3747, 3590, 3433, 3281, 3240, 3216, 3647, 3629, 3611, 3593, 3575, 3565, 3553, 3506,
  3465, 3424, 3383, 3342, 3300, 3259, 3235, 3605, 3595, 3585, 3575, 3565, 3555, 3535, 3449,
  3314, 3273, 3235, 3198, 3161, 3124, 3100, 3470, 3460, 3445, 3428, 3412, 3395, 3375, 3272,
  3776, 3739, 3702, 3665, 3628, 3457, 3260, 3226, 3265, 3286, 3269, 3252, 3236, 3219, 3205,
  3639, 3524, 3276, 3228, 3232, 3236, 3241, 3245, 3245, 3246, 3246, 3246, 3299, 3303, 3289,
  3412, 3240, 3233, 3237, 3242, 3246, 3250, 3255, 3255, 3256, 3256, 3256, 3257, 3270, 3267,
  3420, 3249, 3242, 3242, 3242, 3242, 3243, 3248, 3248, 3259, 3273, 3287, 3301, 3314, 3311,
  3397, 3264, 3259, 3259, 3260, 3260, 3269, 3285, 3306, 3324, 3338, 3351, 3365, 3380, 3424,
  3455, 3322, 3323, 3338, 3354, 3370, 3386, 3402, 3423, 3444, 3465, 3486, 3507, 3525, 3552,
  3506, 3374, 3411, 3456, 3501, 3524, 3540, 3555, 3576, 3597, 3624, 3667, 3710, 3750, 3716,
  3364, 3409, 3453, 3498, 3543, 3588, 3634, 3694, 3737, 3780, 3824, 3867, 3910, 3951, 3960,
  2096, 2834, 3572, 4310, 5048, 5787, 6525, 7125, 7073, 7024, 6975, 6926, 6877, 6828, 6779,
  2096, 2670, 3243, 3816, 4424, 5162, 5900, 6500, 6448, 6399, 6350, 6320, 6275, 6231, 6187,
  2061, 2634, 3207, 3781, 4354, 4928, 5501, 5866, 5826, 5790, 5745, 5701, 5657, 5613, 5569,
  2061, 2504, 2947, 3390, 3833, 4277, 4720, 5074, 5055, 5035, 5016, 4997, 4977, 4958, 4905,
  2040, 2405, 2706, 3122, 3550, 3978, 4406, 4846, 4837, 4828, 4781, 4734, 4687, 4640, 4593,
  2419, 2230, 2593, 2958, 3324, 3689, 4054, 4435, 4409, 4397, 4388, 4379, 4370, 4362, 4353,
  4477, 4212, 3903, 3595, 3287, 3192, 3558, 3938, 3924, 3909, 3895, 3881, 3854, 3845, 3836,
  5549, 5328, 5046, 4738, 4429, 4121, 3813, 3544, 3568, 3567, 3553, 3539, 3525, 3511, 3496,
  4986, 4765, 4544, 4324, 4103, 3883, 3582, 3313, 3337, 3353, 3370, 3386, 3402, 3395, 3381,
  4630, 4410, 4189, 3968, 3748, 3537, 3366, 3222, 3236, 3252, 3268, 3285, 3300, 3297, 3294,
  4454, 4233, 4061, 3890, 3718, 3547, 3376, 3232, 3246, 3246, 3243, 3240, 3237, 3234, 3232,
  4282, 4150, 4017, 3870, 3699, 3527, 3356, 3212, 3211, 3208, 3205, 3203, 3212, 3220, 3227,
  4102, 3969, 3837, 3704, 3572, 3439, 3307, 3179, 3188, 3196, 3204, 3211, 3219, 3227, 3235,
  3563, 3431, 3298, 3166, 3071, 3132, 3192, 3253, 3267, 3276, 3285, 3286, 3294, 3301, 3309,
  2913, 2971, 3032, 3093, 3154, 3214, 3275, 3336, 3350, 3359, 3368, 3376, 3385, 3394, 3403]

theorem aFit_length : aFit.length = 3375 := by decide +kernel

theorem aFit_bounds : (aFit.all fun x => Nat.ble 2016 x && Nat.ble x 8202) = true := by
  decide +kernel

/-- `b_fit`, `galacticus_truncation/johnsonSUparams.py` 378-799. -/
def bFit : List Nat := [
  8897, 8876, 8856, 8836, 8815, 8795, 8775, 8754, 8722, 8690, 8657, 8625, 8593, 8560, 8528,
  8712, 8691, 8671, 8651, 8638, 8626, 8614, 8603, 8639, 8675, 8710, 8732, 8700, 8667, 8635,
  8585, 8544, 8532, 8520, 8509, 8497, 8486, 8474, 8510, 8546, 8582, 8618, 8654, 8689, 8711,
  8667, 8625, 8584, 8542, 8500, 8459, 8417, 8439, 8461, 8483, 8505, 8527, 8548, 8570, 8571,
  7889, 7940, 7991, 8042, 8093, 8144, 8187, 8230, 8279, 8327, 8318, 8309, 8300, 8291, 8282,
  8216, 8234, 8277, 8320, 8364, 8407, 8450, 8493, 8487, 8536, 8584, 8633, 8681, 8730, 8778,
  8383, 8397, 8412, 8427, 8441, 8465, 8509, 8552, 8538, 8523, 8509, 8495, 8502, 8550, 8599,
  8533, 8548, 8563, 8577, 8592, 8606, 8605, 8585, 8563, 8546, 8531, 8517, 8503, 8488, 8474,
  8658, 8673, 8679, 8659, 8638, 8618, 8598, 8578, 8556, 8534, 8512, 8490, 8468, 8452, 8438,
  8565, 8540, 8516, 8495, 8475, 8455, 8435, 8415, 8393, 8371, 8349, 8327, 8308, 8362, 8415,
  8285, 8260, 8236, 8211, 8186, 8162, 8138, 8118, 8096, 8136, 8190, 8244, 8297, 8351, 8404,
  8337, 8312, 8288, 8263, 8238, 8251, 8285, 8320, 8374, 8427, 8481, 8534, 8479, 8358, 8237,
  8537, 8537, 8572, 8606, 8641, 8676, 8710, 8745, 8726, 8605, 8484, 8363, 8242, 8121, 8000,
  8363, 8418, 8473, 8527, 8566, 8601, 8636, 8670, 8761, 8852, 8943, 8866, 8745, 8624, 8503,
  8121, 8176, 8230, 8285, 8340, 8395, 8450, 8504, 8595, 8686, 8777, 8868, 8959, 9050, 9141,
  6775, 6855, 6935, 6973, 6952, 6932, 6912, 6891, 6859, 6827, 6794, 6762, 6766, 6797, 6828,
  7046, 7025, 7005, 6985, 6971, 6916, 6828, 6740, 6805, 6869, 6922, 6943, 6911, 6879, 6846,
  7286, 7589, 7759, 7748, 7736, 7724, 7713, 7762, 7435, 7048, 6793, 6829, 6865, 6900, 6922,
  7945, 7903, 7862, 7820, 7802, 7701, 7723, 7950, 7742, 7533, 7422, 7444, 7466, 7488, 7489,
  7565, 7616, 7667, 7718, 7769, 7946, 8216, 8063, 8119, 8239, 8305, 8296, 8287, 8278, 8269,
  8303, 8573, 8804, 8677, 8484, 8528, 8571, 9075, 9195, 9371, 9239, 8938, 8987, 9036, 9084,
  9553, 9568, 9583, 9711, 9849, 9775, 9286, 10041, 10353, 10664, 10838, 10824, 10564, 9827, 9090,
  9547, 9562, 9577, 9591, 9606, 9692, 9704, 9565, 9894, 10214, 10525, 10837, 10832, 10817, 10803,
  9551, 9566, 9572, 9551, 9531, 9442, 9303, 9163, 9141, 9119, 9213, 9543, 9862, 10173, 10217,
  9458, 9433, 9409, 9388, 9368, 9279, 9140, 9000, 8978, 8956, 9548, 10525, 10709, 10310, 10118,
  11159, 10605, 10366, 10341, 10317, 10292, 10248, 10108, 11086, 11296, 11350, 11404, 11196, 10797, 10398,
  12615, 12590, 12565, 12540, 12516, 12132, 11479, 11480, 11533, 11497, 11098, 10699, 11513, 13062, 14534,
  12815, 12814, 12849, 12884, 12919, 12557, 11904, 11400, 12750, 14085, 14512, 14660, 14539, 14418, 14296,
  12641, 12695, 12750, 12805, 12844, 12482, 11830, 15848, 15824, 15605, 15386, 15219, 15067, 14921, 14800,
  14623, 14940, 15257, 15463, 15517, 15572, 15627, 15682, 15773, 15864, 15955, 16046, 15958, 15739, 15520,
  4653, 4733, 4813, 4894, 4974, 5054, 5049, 5028, 4996, 4973, 5004, 5035, 5066, 5097, 5128,
  5139, 5219, 5235, 5215, 5141, 5053, 5335, 5638, 5311, 5006, 5071, 5115, 5083, 5073, 5104,
  5619, 5923, 6227, 6530, 6834, 6870, 6859, 6908, 6581, 6254, 5927, 5600, 5153, 5112, 5134,
  7223, 7181, 7177, 7087, 7136, 7185, 7234, 7461, 7253, 7044, 6835, 6627, 6418, 6405, 6406,
  7727, 7778, 7862, 8132, 8290, 7826, 7363, 6899, 6907, 6915, 6924, 7027, 7147, 7158, 7149,
  7840, 8110, 8379, 8649, 8919, 9095, 8702, 9196, 9316, 9436, 9557, 9677, 9934, 9357, 9390,
  10412, 10615, 10754, 10892, 11030, 11169, 10776, 11270, 11487, 11799, 12110, 12422, 12733, 12156, 11419,
  10718, 10733, 10766, 10905, 11043, 11182, 11194, 11055, 11384, 11703, 12015, 12326, 12638, 12949, 13132,
  10444, 10458, 10446, 10307, 10167, 10028, 9888, 9748, 10045, 10371, 10683, 10865, 10850, 10835, 10820,
  10618, 10493, 10469, 10333, 10194, 10054, 9915, 9775, 10753, 11520, 11121, 10766, 10751, 10736, 10721,
  15680, 15127, 14574, 14020, 13477, 13452, 13408, 13268, 14246, 14387, 13988, 13589, 13190, 12790, 12391,
  17132, 16578, 16025, 15721, 15696, 15280, 14627, 14443, 15400, 15000, 14601, 14202, 13803, 15055, 16605,
  17092, 17092, 17022, 16369, 15717, 15064, 14411, 13907, 15257, 16607, 17957, 19307, 19901, 20714, 20593,
  18093, 18409, 18558, 18613, 18107, 17454, 16802, 19499, 20849, 22113, 21894, 21674, 21455, 21292, 21140,
  21126, 21443, 21760, 22076, 22393, 22710, 22804, 22859, 22950, 22994, 22775, 22556, 22336, 22117, 21898,
  3072, 3097, 3177, 3258, 3338, 3418, 3498, 3578, 3595, 3626, 3657, 3688, 3719, 3750, 3780,
  3536, 3840, 4143, 4447, 4611, 4691, 4771, 4790, 4847, 4878, 4909, 4805, 4478, 4151, 3824,
  4343, 4493, 4796, 5100, 5403, 5707, 6010, 6059, 5977, 5699, 5372, 5045, 4718, 4391, 4064,
  6658, 6433, 6442, 6491, 6540, 6589, 6638, 6858, 6707, 6498, 6289, 6081, 5872, 5663, 5523,
  7562, 7733, 8003, 7845, 7381, 6917, 6453, 5989, 5997, 6006, 6014, 6022, 6077, 6198, 6249,
  7350, 7620, 7890, 8160, 8430, 8700, 8932, 8978, 9098, 9219, 9339, 9459, 9580, 9754, 9755,
  9923, 10193, 10452, 10591, 10729, 10868, 11006, 11052, 11172, 11307, 11619, 11930, 12242, 12553, 12554,
  11356, 11248, 11260, 11399, 11537, 11675, 11814, 11952, 12264, 12575, 12887, 13198, 13510, 13674, 13706,
  11072, 10963, 10824, 10684, 10544, 10405, 10475, 10613, 10925, 11156, 11142, 11127, 11112, 11097, 11129,
  13659, 13551, 13412, 13272, 13132, 12977, 12424, 11871, 11365, 10965, 10936, 10921, 10906, 10891, 10876,
  18721, 18613, 18130, 17577, 17023, 16470, 15917, 15364, 14858, 14458, 14059, 13660, 13261, 12927, 12912,
  19822, 19269, 18716, 18163, 17623, 17141, 16488, 15835, 16585, 17936, 19286, 18954, 18555, 18156, 17757,
  19663, 19215, 18562, 17909, 17257, 16604, 15951, 15298, 16049, 17399, 18749, 20099, 21450, 22800, 23855,
  22202, 22518, 22835, 23020, 22437, 21784, 21131, 20478, 21828, 23178, 24528, 25553, 25333, 25114, 24895,
  25235, 25552, 25869, 26185, 26502, 26819, 27136, 27189, 27042, 26823, 26603, 26384, 26165, 25946, 25727,
  2864, 2811, 2773, 2853, 2934, 3014, 3094, 3174, 3172, 3174, 3205, 3236, 3267, 3298, 3329,
  3250, 3553, 3835, 3915, 3996, 4076, 4025, 3957, 4051, 4138, 4169, 4200, 4231, 3938, 3611,
  4057, 3989, 3963, 4267, 4570, 4874, 5177, 5226, 5320, 5381, 5159, 4832, 4505, 4178, 3851,
  5812, 5824, 5809, 5624, 5673, 5722, 5771, 6100, 5891, 5682, 5474, 5265, 5056, 5022, 4988,
  6567, 6601, 6661, 6930, 7118, 6654, 6191, 5727, 5735, 5743, 5752, 5859, 5980, 5953, 5907,
  6795, 7065, 7334, 7604, 7874, 8045, 7650, 7902, 8022, 8142, 8263, 8383, 8648, 8307, 8454,
  9367, 9565, 9703, 9842, 9980, 10118, 9716, 9975, 10201, 10512, 10824, 11135, 11447, 11094, 10658,
  10500, 10435, 10482, 10620, 10759, 10897, 11035, 11040, 11278, 11589, 11901, 12212, 12524, 12738, 12836,
  10357, 10293, 10220, 10080, 9941, 9801, 9871, 10010, 10321, 10553, 10538, 10523, 10508, 10593, 10691,
  12945, 12881, 12808, 12668, 12528, 12373, 11820, 11267, 10108, 9983, 9953, 9939, 9924, 9909, 9894,
  17402, 17338, 16867, 16314, 15761, 15208, 14655, 14354, 13601, 13476, 13077, 12678, 12278, 11944, 11930,
  17869, 17316, 16762, 16389, 16187, 15704, 15051, 14399, 14308, 14378, 15728, 17078, 17573, 17174, 16774,
  17910, 17750, 17588, 16936, 16283, 15630, 14977, 14325, 14832, 16182, 17532, 18882, 20233, 21174, 21176,
  20238, 20555, 20441, 20124, 19541, 18889, 18236, 17583, 18931, 20279, 21629, 22654, 22434, 22215, 21996,
  23272, 23588, 23905, 24222, 24539, 24855, 24610, 24293, 24248, 24182, 23963, 23744, 23525, 23306, 23087,
  2655, 2602, 2550, 2497, 2530, 2610, 2690, 2770, 2768, 2767, 2765, 2785, 2815, 2846, 2877,
  2963, 3140, 3220, 3300, 3327, 3259, 3192, 3124, 3218, 3312, 3406, 3460, 3491, 3522, 3398,
  3770, 3703, 3635, 3567, 3737, 4041, 4344, 4393, 4487, 4582, 4676, 4576, 4292, 3965, 3638,
  5000, 5012, 5024, 5042, 4823, 4855, 4904, 5233, 5024, 4815, 4607, 4469, 4457, 4445, 4410,
  5573, 5606, 5640, 5673, 5858, 6127, 5928, 5464, 5472, 5521, 5641, 5702, 5657, 5611, 5566,
  6239, 6509, 6779, 7019, 6938, 6658, 6574, 6825, 6945, 7066, 7230, 7272, 7123, 7269, 7416,
  8369, 8508, 8646, 8784, 8812, 8541, 8071, 8505, 8646, 8954, 9266, 9577, 9634, 9198, 8762,
  9306, 9242, 9288, 9427, 9565, 9704, 9564, 9395, 9536, 9693, 10005, 10316, 10628, 10843, 10941,
  9643, 9578, 9514, 9449, 9337, 9197, 9267, 9406, 9717, 9949, 9934, 9960, 10057, 10155, 10253,
  12231, 12166, 12102, 12037, 11924, 11769, 11216, 10663, 9420, 9329, 9420, 9445, 9431, 9416, 9401,
  15449, 15384, 14914, 14361, 13807, 13321, 13119, 12917, 12165, 12074, 11983, 11695, 11296, 10962, 10947,
  15915, 15362, 15154, 14952, 14750, 14268, 13615, 12962, 12871, 12781, 12690, 13520, 14871, 16191, 15792,
  16183, 16023, 15923, 15822, 15369, 14716, 14063, 13411, 13918, 15268, 16618, 17968, 18273, 18275, 18277,
  18299, 17983, 17667, 17350, 16852, 16199, 15546, 14893, 16035, 17383, 18731, 19755, 19536, 19316, 19097,
  21308, 21625, 21942, 22258, 22347, 22031, 21714, 21398, 21352, 21306, 21261, 21104, 20885, 20666, 20446,
  2446, 2393, 2341, 2288, 2236, 2206, 2286, 2366, 2364, 2363, 2361, 2360, 2364, 2395, 2425,
  2731, 2679, 2754, 2834, 2797, 2729, 2662, 2594, 2688, 2782, 2877, 2951, 2955, 2986, 3017,
  3484, 3416, 3348, 3281, 3213, 3208, 3511, 3560, 3654, 3749, 3843, 3937, 3980, 3752, 3425,
  4188, 4200, 4211, 4223, 4235, 4199, 4037, 4365, 4157, 3948, 3903, 3891, 3879, 3867, 3833,
  4578, 4612, 4645, 4678, 4712, 4785, 5055, 5202, 5303, 5424, 5406, 5360, 5315, 5270, 5224,
  5683, 5953, 6131, 5763, 5665, 5581, 5497, 5749, 5869, 6123, 5812, 5938, 6085, 6232, 6378,
  7176, 7314, 7453, 7336, 7167, 6896, 6426, 6860, 7001, 7142, 7370, 7681, 7739, 7303, 6967,
  8113, 8048, 8095, 8233, 8255, 8087, 7919, 7750, 7891, 8033, 8174, 8421, 8732, 8947, 9045,
  8928, 8864, 8799, 8735, 8670, 8593, 8663, 8802, 9113, 9345, 9424, 9522, 9619, 9717, 9815,
  11516, 11452, 11387, 11323, 11258, 11165, 10612, 10059, 8816, 8725, 8816, 8914, 8993, 8978, 8963,
  13495, 13430, 12960, 12407, 12087, 11885, 11683, 11481, 10729, 10638, 10547, 10456, 10313, 9979, 9965,
  14032, 13830, 13628, 13426, 13224, 12993, 12340, 11687, 11597, 11506, 11415, 11324, 12130, 13480, 14217,
  14456, 14297, 14196, 14096, 13995, 13802, 13149, 12497, 13004, 14354, 15370, 15372, 15374, 15376, 15378,
  16572, 16256, 15940, 15623, 15478, 15285, 14632, 13979, 13981, 14488, 15836, 16894, 16819, 16600, 16381,
  19345, 19662, 19978, 19768, 19452, 19135, 18819, 18503, 18457, 18411, 18365, 18320, 18245, 18026, 17806,
  2237, 2185, 2132, 2080, 2027, 1975, 1922, 1962, 1960, 1959, 1957, 1956, 1954, 1953, 1974,
  2523, 2470, 2418, 2430, 2393, 2325, 2258, 2190, 2284, 2378, 2473, 2547, 2545, 2544, 2565,
  3088, 3045, 2977, 2909, 2842, 2774, 2707, 2720, 2814, 2908, 3003, 3097, 3191, 3285, 3137,
  3376, 3387, 3399, 3411, 3422, 3434, 3454, 3498, 3350, 3338, 3326, 3314, 3302, 3290, 3255,
  3972, 4006, 4039, 4073, 4106, 4140, 4056, 4218, 4364, 4493, 4447, 4402, 4357, 4311, 4266,
  5053, 5058, 4757, 4673, 4589, 4505, 4421, 4606, 4789, 4607, 4754, 4901, 5047, 5194, 5341,
  5982, 6027, 5859, 5691, 5522, 5251, 5030, 5215, 5356, 5497, 5638, 5786, 5843, 5783, 5929,
  6919, 6855, 6901, 6779, 6610, 6442, 6274, 6105, 6246, 6388, 6529, 6670, 6836, 7051, 7149,
  7869, 7805, 7740, 7676, 7611, 7546, 7617, 7449, 7590, 7839, 7937, 8034, 8132, 8230, 8328,
  9672, 9608, 9543, 9478, 9414, 9331, 8898, 8696, 8212, 8121, 8212, 8310, 8408, 8505, 8525,
  11542, 11477, 11054, 10852, 10650, 10448, 10247, 10045, 9561, 9470, 9379, 9288, 9197, 9138, 9158,
  12305, 12103, 11901, 11699, 11497, 11359, 11258, 10773, 10683, 10592, 10501, 10410, 11216, 11316, 11318,
  12729, 12570, 12469, 12369, 12268, 12168, 12067, 11583, 12090, 12470, 12471, 12473, 12475, 12477, 12479,
  14845, 14529, 14213, 13896, 13751, 13650, 13550, 13065, 13067, 13069, 13071, 13999, 13953, 13907, 13741,
  17381, 17505, 17189, 16873, 16556, 16240, 15924, 15607, 15562, 15516, 15470, 15424, 15378, 15333, 15166,
  2130, 2077, 2025, 1972, 1920, 1867, 1815, 1816, 2037, 2037, 2036, 2034, 2033, 2031, 2030,
  2312, 2245, 2177, 2113, 2060, 2008, 1956, 2044, 2138, 2232, 2327, 2447, 2624, 2622, 2621,
  2593, 2602, 2535, 2467, 2399, 2332, 2264, 2187, 2282, 2376, 2470, 2564, 2658, 2751, 2956,
  2834, 2869, 2881, 2893, 2905, 2916, 2928, 2940, 3170, 3137, 3125, 3113, 3101, 3089, 3077,
  3475, 3505, 3422, 3455, 3489, 3522, 3556, 3589, 3544, 3498, 3453, 3407, 3362, 3509, 3650,
  4254, 4284, 4201, 4117, 4033, 3949, 3866, 3708, 3855, 4002, 4148, 4295, 4442, 4581, 4429,
  5184, 5214, 5131, 4991, 4823, 4654, 4486, 4318, 4464, 4607, 4749, 4890, 5031, 5170, 4942,
  5982, 5979, 5812, 5644, 5476, 5307, 5139, 5017, 5032, 5151, 5292, 5434, 5575, 5716, 5857,
  6932, 6929, 6762, 6618, 6554, 6489, 6425, 6360, 6375, 6471, 6569, 6666, 6764, 6895, 7036,
  7955, 8370, 8172, 7971, 7900, 7835, 7771, 7706, 7718, 7817, 7915, 8013, 8103, 8012, 7922,
  9824, 10240, 10042, 9840, 9638, 9436, 9234, 9055, 9067, 9009, 8918, 8827, 8736, 8645, 8554,
  10694, 10968, 10769, 10567, 10365, 10163, 10024, 9923, 9748, 9657, 9566, 9528, 9724, 9848, 9850,
  11148, 11392, 11235, 11134, 11034, 10933, 10833, 10732, 10812, 11002, 11004, 11006, 11007, 11009, 11011,
  12894, 13506, 13196, 12879, 12563, 12416, 12316, 12215, 12170, 12124, 12078, 12070, 12072, 12076, 12396,
  15318, 15462, 15149, 14832, 14516, 14199, 13883, 13567, 13521, 13475, 13430, 13384, 13338, 13297, 13877,
  2113, 2060, 2008, 1955, 1903, 1899, 1900, 1901, 2122, 2343, 2546, 2544, 2543, 2541, 2540,
  2100, 2035, 1982, 1930, 1877, 1953, 2041, 2129, 2223, 2318, 2412, 2532, 2753, 2975, 3131,
  2381, 2390, 2399, 2402, 2334, 2266, 2199, 2122, 2216, 2310, 2405, 2499, 2433, 2353, 2558,
  2586, 2605, 2624, 2659, 2670, 2682, 2694, 2706, 2910, 3115, 3324, 3292, 3280, 3268, 3257,
  3089, 3119, 3149, 3191, 3224, 3257, 3291, 3324, 3279, 3233, 3188, 3143, 3129, 3271, 3412,
  3809, 3839, 3869, 3889, 3806, 3722, 3638, 3481, 3627, 3774, 3921, 4063, 3892, 4212, 4531,
  4659, 4689, 4719, 4763, 4594, 4426, 4258, 4089, 4231, 4372, 4513, 4654, 4455, 4227, 3999,
  5275, 5272, 5315, 5377, 5208, 5040, 4872, 4703, 4802, 4800, 4941, 5082, 5224, 5192, 4959,
  6112, 6206, 6218, 6201, 6033, 5899, 5834, 5770, 6115, 5970, 5817, 5915, 6013, 6143, 6285,
  6731, 6864, 7279, 7642, 7440, 7245, 7181, 7116, 6765, 6969, 7163, 7261, 7352, 7261, 7170,
  8318, 8733, 8637, 8435, 8233, 8031, 8045, 8133, 8114, 8239, 8332, 8241, 8150, 8059, 7968,
  9188, 9462, 9735, 9829, 9627, 9425, 9223, 8885, 8794, 8749, 8742, 8735, 9027, 9347, 9605,
  9772, 9977, 10182, 10392, 10241, 10140, 10040, 9939, 10019, 10339, 10659, 10819, 10821, 10823, 10825,
  10741, 11353, 11965, 12498, 12182, 11866, 11549, 11422, 11377, 11331, 11285, 11277, 11570, 11890, 12209,
  13165, 13309, 13453, 13557, 13241, 12924, 12608, 12292, 12246, 12200, 12154, 12109, 12636, 13216, 13797,
  2096, 2043, 1991, 1982, 1983, 1984, 1985, 1986, 2207, 2428, 2650, 2871, 3053, 3051, 3050,
  1994, 1941, 1889, 1880, 1950, 2038, 2078, 2087, 2181, 2275, 2226, 2208, 2429, 2650, 2871,
  2169, 2178, 2187, 2196, 2205, 2201, 2133, 2057, 2151, 2245, 2195, 2115, 2035, 1954, 2159,
  2338, 2357, 2376, 2395, 2414, 2448, 2460, 2471, 2676, 2881, 3086, 3291, 3477, 3448, 3436,
  2767, 2797, 2827, 2869, 2911, 2952, 2986, 3019, 2974, 2928, 2912, 2902, 2891, 3033, 3174,
  3364, 3394, 3424, 3454, 3484, 3494, 3410, 3253, 3400, 3542, 3380, 3675, 3994, 4313, 4633,
  3952, 3982, 4012, 4076, 4159, 4197, 4028, 3860, 4001, 4143, 3976, 3743, 3512, 3285, 3146,
  4567, 4564, 4608, 4690, 4773, 4811, 4642, 4474, 4573, 4571, 4712, 4715, 4482, 4249, 4017,
  5221, 5314, 5408, 5501, 5505, 5473, 5304, 5180, 5525, 5538, 5552, 5389, 5261, 5392, 5533,
  5840, 5933, 6026, 6189, 6604, 6910, 6709, 6526, 6151, 6165, 6219, 6423, 6600, 6510, 6419,
  6812, 7227, 7130, 6929, 6916, 7004, 7091, 7179, 7160, 7286, 7395, 7505, 7579, 7488, 7397,
  7713, 7956, 8229, 8323, 8121, 7977, 8065, 8152, 7963, 7956, 8218, 8538, 8815, 8925, 9034,
  8396, 8601, 8806, 9011, 9216, 9389, 9247, 9146, 9226, 9546, 9866, 10185, 10505, 10637, 10639,
  9246, 9451, 9812, 10424, 10939, 11002, 10685, 10369, 10323, 10277, 10747, 11121, 11441, 11761, 12080,
  11012, 11156, 11300, 11443, 11587, 11649, 11333, 11017, 10971, 10925, 11395, 11975, 12556, 13136, 13716,
  2079, 2066, 2067, 2068, 2068, 2069, 2070, 2071, 2292, 2514, 2735, 2956, 3177, 3398, 3560,
  1977, 1964, 1965, 1966, 1994, 2003, 2012, 2021, 1988, 1907, 1827, 1809, 2030, 2251, 2473,
  1943, 1952, 1961, 1971, 1980, 1989, 1998, 1991, 1958, 1877, 1797, 1716, 1636, 1555, 1760,
  2090, 2109, 2128, 2147, 2166, 2185, 2204, 2237, 2442, 2647, 2852, 3057, 3261, 3466, 3525,
  2444, 2474, 2504, 2547, 2589, 2632, 2674, 2714, 2694, 2684, 2674, 2663, 2653, 2925, 3244,
  2836, 2866, 2896, 2926, 2956, 2986, 3016, 3025, 2893, 3138, 3457, 3776, 4096, 4415, 4734,
  3244, 3274, 3304, 3368, 3451, 3533, 3616, 3631, 3499, 3266, 3033, 2801, 2609, 2928, 3247,
  3745, 3838, 3900, 3982, 4065, 4147, 4230, 4245, 4309, 4237, 4005, 3772, 3539, 3307, 3074,
  4329, 4423, 4516, 4610, 4703, 4794, 4856, 4871, 4935, 4948, 4962, 4975, 4984, 4866, 4633,
  4948, 5041, 5135, 5228, 5322, 5490, 5511, 5599, 5561, 5575, 5588, 5601, 5669, 5779, 5835,
  5596, 5721, 5787, 5875, 5963, 6050, 6138, 6226, 6207, 6332, 6442, 6551, 6661, 6771, 6826,
  6337, 6542, 6747, 6848, 6936, 7024, 7111, 7199, 7409, 7728, 8025, 8135, 8244, 8354, 8463,
  7020, 7225, 7430, 7635, 7840, 8045, 8250, 8327, 8536, 8856, 9176, 9496, 9816, 10135, 10389,
  7870, 8075, 8280, 8485, 8787, 8930, 9074, 9094, 9506, 10086, 10667, 11041, 11361, 11680, 12000,
  8859, 9003, 9147, 9290, 9434, 9578, 9721, 9741, 10154, 10734, 11314, 11895, 12475, 13056, 13636,
  2257, 2258, 2259, 2260, 2239, 2203, 2168, 2132, 2115, 2098, 2082, 2164, 2386, 2607, 2828,
  2151, 2125, 2089, 2053, 2036, 2045, 2055, 2090, 2248, 2469, 2690, 2780, 2774, 2768, 2763,
  2020, 2011, 2003, 2003, 2015, 2024, 2033, 2060, 1980, 1899, 1985, 2067, 2062, 2056, 2051,
  2075, 2088, 2101, 2114, 2133, 2152, 2171, 2217, 2360, 2565, 2769, 2834, 2797, 2760, 2762,
  2356, 2398, 2433, 2463, 2468, 2455, 2430, 2357, 2677, 2996, 2986, 2823, 2551, 2450, 2471,
  2493, 2569, 2599, 2629, 2659, 2689, 2720, 2689, 2726, 2764, 2801, 2754, 2859, 3178, 3498,
  2855, 2904, 2978, 3061, 3143, 3208, 3238, 3103, 3137, 3171, 3205, 3128, 2920, 2762, 2604,
  3145, 3194, 3243, 3321, 3404, 3486, 3575, 3670, 3716, 3755, 3789, 3823, 3857, 3633, 3401,
  3585, 3668, 3753, 3846, 3941, 4036, 4132, 4227, 4240, 4265, 4310, 4349, 4383, 4435, 4490,
  4204, 4292, 4379, 4473, 4567, 4663, 4758, 4853, 4867, 4853, 4824, 4859, 4941, 5008, 5063,
  4728, 4816, 4904, 4991, 5085, 5183, 5281, 5376, 5346, 5409, 5491, 5574, 5662, 5772, 5882,
  5340, 5421, 5502, 5586, 5674, 5761, 5849, 5947, 6030, 6139, 6249, 6359, 6463, 6565, 6666,
  5889, 6015, 6141, 6266, 6350, 6536, 6741, 6946, 7266, 7585, 7870, 7975, 8077, 8178, 8280,
  6357, 6553, 6789, 7026, 7223, 7367, 7511, 7667, 8193, 8773, 9354, 9656, 9757, 9859, 9960,
  7196, 7385, 7574, 7763, 7933, 8076, 8220, 8364, 8510, 8656, 8803, 9131, 9711, 10292, 10872,
  2365, 2469, 2439, 2403, 2367, 2331, 2295, 2260, 2243, 2226, 2209, 2193, 2176, 2159, 2144,
  2261, 2315, 2309, 2301, 2287, 2251, 2215, 2179, 2173, 2168, 2160, 2143, 2126, 2112, 2147,
  2130, 2184, 2178, 2170, 2161, 2153, 2144, 2157, 2152, 2146, 2141, 2135, 2128, 2092, 2076,
  2082, 2095, 2108, 2121, 2134, 2147, 2160, 2181, 2159, 2121, 2084, 2047, 2010, 1973, 1978,
  2170, 2137, 2104, 2071, 2041, 2071, 2099, 2125, 2147, 2168, 2189, 2211, 2249, 2285, 2283,
  2204, 2234, 2264, 2295, 2325, 2355, 2398, 2428, 2466, 2504, 2541, 2579, 2617, 2648, 2613,
  2471, 2501, 2545, 2594, 2643, 2692, 2737, 2767, 2805, 2840, 2874, 2907, 2941, 2972, 2925,
  2733, 2782, 2831, 2880, 2930, 2947, 2938, 2978, 3089, 3175, 3209, 3243, 3277, 3311, 3348,
  3061, 3091, 3079, 3099, 3195, 3290, 3385, 3481, 3536, 3591, 3646, 3701, 3831, 3894, 3931,
  3246, 3360, 3459, 3554, 3650, 3745, 3841, 3936, 3991, 4046, 4101, 4156, 4212, 4294, 4377,
  3699, 3814, 3912, 4010, 4108, 4206, 4304, 4399, 4454, 4532, 4614, 4696, 4778, 4860, 4942,
  4133, 4279, 4379, 4477, 4575, 4673, 4787, 4913, 5014, 5108, 5190, 5272, 5354, 5439, 5596,
  4645, 4791, 4901, 5027, 5153, 5279, 5405, 5531, 5633, 5734, 5836, 5937, 6039, 6131, 6254,
  5114, 5260, 5447, 5635, 5824, 5966, 6092, 6218, 6320, 6421, 6534, 6680, 6827, 6966, 6954,
  5420, 5609, 5798, 5987, 6176, 6365, 6559, 6872, 7018, 7165, 7311, 7458, 7604, 7748, 7823,
  2010, 2113, 2217, 2321, 2424, 2528, 2632, 2713, 2698, 2683, 2668, 2652, 2637, 2622, 2607,
  2010, 2064, 2118, 2172, 2236, 2340, 2443, 2525, 2510, 2494, 2479, 2473, 2460, 2447, 2433,
  2002, 2056, 2110, 2164, 2218, 2272, 2326, 2340, 2338, 2324, 2311, 2298, 2284, 2271, 2258,
  2002, 2017, 2031, 2046, 2060, 2075, 2089, 2110, 2114, 2118, 2122, 2126, 2130, 2134, 2131,
  2004, 2030, 2057, 2073, 2097, 2121, 2145, 2178, 2204, 2232, 2230, 2228, 2226, 2224, 2222,
  2046, 2034, 2058, 2085, 2111, 2138, 2164, 2205, 2230, 2254, 2281, 2307, 2333, 2359, 2385,
  2211, 2205, 2190, 2174, 2158, 2143, 2169, 2210, 2246, 2284, 2321, 2358, 2380, 2406, 2432,
  2292, 2341, 2344, 2328, 2312, 2297, 2281, 2268, 2362, 2421, 2458, 2495, 2532, 2570, 2607,
  2190, 2239, 2288, 2337, 2386, 2434, 2424, 2411, 2506, 2590, 2674, 2758, 2842, 2891, 2928,
  2208, 2257, 2306, 2355, 2403, 2465, 2579, 2690, 2770, 2854, 2938, 3022, 3106, 3189, 3271,
  2329, 2378, 2491, 2605, 2719, 2833, 2947, 3058, 3138, 3220, 3303, 3385, 3467, 3550, 3632,
  2581, 2727, 2873, 3006, 3121, 3235, 3349, 3460, 3542, 3625, 3707, 3789, 3884, 3967, 4051,
  2872, 3018, 3164, 3310, 3455, 3601, 3747, 3872, 3966, 4049, 4133, 4216, 4299, 4383, 4466,
  2865, 3011, 3157, 3303, 3464, 3777, 4090, 4403, 4490, 4566, 4642, 4708, 4792, 4875, 4958,
  2766, 3059, 3372, 3686, 3999, 4312, 4626, 4939, 5026, 5101, 5177, 5253, 5329, 5404, 5480]

theorem bFit_length : bFit.length = 3375 := by decide +kernel

theorem bFit_bounds : (bFit.all fun x => Nat.ble 1555 x && Nat.ble x 27189) = true := by
  decide +kernel

/-- `a_fit_zinfall`, `galacticus_truncation/johnsonSUparams.py` 801-1175. -/
def aFitZ : List Nat := [
  3330, 3340, 3351, 3362, 3372, 3383, 3394, 3404, 3390, 3375, 3361, 3347, 3332, 3318, 3303,
  3289, 3299, 3310, 3321, 3317, 3309, 3301, 3293, 3311, 3329, 3347, 3358, 3344, 3329, 3315,
  3263, 3242, 3234, 3227, 3219, 3211, 3203, 3196, 3210, 3228, 3246, 3264, 3281, 3299, 3317,
  3287, 3266, 3245, 3224, 3203, 3182, 3161, 3159, 3174, 3188, 3202, 3217, 3231, 3245, 3252,
  3057, 3064, 3070, 3077, 3084, 3090, 3095, 3099, 3117, 3135, 3139, 3142, 3145, 3149, 3152,
  3165, 3186, 3190, 3195, 3199, 3204, 3208, 3212, 3209, 3227, 3245, 3263, 3281, 3299, 3316,
  3147, 3170, 3193, 3216, 3240, 3256, 3261, 3265, 3259, 3252, 3245, 3239, 3240, 3258, 3276,
  3175, 3178, 3192, 3215, 3238, 3261, 3285, 3308, 3301, 3295, 3288, 3281, 3275, 3261, 3239,
  3278, 3281, 3284, 3287, 3289, 3292, 3311, 3334, 3327, 3317, 3295, 3272, 3250, 3228, 3206,
  3291, 3294, 3297, 3300, 3303, 3305, 3279, 3253, 3282, 3312, 3291, 3269, 3247, 3225, 3203,
  3227, 3230, 3209, 3183, 3157, 3131, 3106, 3080, 3109, 3139, 3168, 3197, 3226, 3247, 3225,
  3236, 3240, 3244, 3237, 3211, 3185, 3160, 3134, 3100, 3067, 3057, 3087, 3116, 3145, 3175,
  3278, 3282, 3286, 3290, 3294, 3298, 3302, 3289, 3256, 3222, 3189, 3156, 3122, 3089, 3092,
  3215, 3219, 3223, 3227, 3234, 3248, 3263, 3278, 3245, 3211, 3178, 3157, 3181, 3205, 3229,
  3134, 3148, 3163, 3178, 3193, 3208, 3222, 3237, 3261, 3285, 3309, 3333, 3357, 3381, 3405,
  2660, 2562, 2465, 2368, 2271, 2270, 2269, 2269, 2260, 2252, 2243, 2234, 2332, 2429, 2526,
  2664, 2567, 2470, 2372, 2280, 2454, 2628, 2802, 2832, 2707, 2582, 2481, 2578, 2676, 2773,
  2756, 2737, 2911, 3085, 2994, 2903, 2812, 2721, 2535, 2348, 2419, 2490, 2561, 2632, 2443,
  2973, 2966, 2958, 2950, 2942, 2924, 2905, 2748, 2857, 2821, 2785, 2753, 2731, 2709, 2687,
  2953, 2946, 2939, 2931, 2924, 2681, 2759, 2837, 2299, 2275, 2507, 2738, 2824, 2910, 2934,
  2991, 2913, 2836, 2758, 2783, 2836, 2913, 2890, 2976, 3062, 3148, 3336, 3488, 3574, 3660,
  3283, 3323, 3363, 3409, 3458, 3507, 3454, 3074, 3277, 3481, 3657, 3819, 3981, 4075, 4135,
  3600, 3649, 3628, 3523, 3417, 3311, 3353, 3157, 3319, 3435, 3494, 3554, 3613, 3658, 3684,
  3619, 3571, 3523, 3432, 3326, 3546, 3696, 3127, 3187, 3241, 3281, 3320, 3346, 3372, 3398,
  4026, 3960, 3894, 3827, 3779, 3737, 3835, 3500, 3539, 3576, 3536, 3495, 3673, 3851, 3883,
  5073, 5007, 4855, 4686, 4784, 4705, 4591, 4227, 4112, 4010, 3970, 3930, 3889, 3886, 4064,
  5511, 5397, 5248, 5079, 4910, 4806, 4742, 4677, 4285, 4245, 4204, 4164, 4187, 4247, 4308,
  5354, 5156, 4958, 4777, 4712, 4648, 4583, 4447, 4458, 4470, 4482, 4463, 4675, 5101, 5526,
  6013, 6059, 6150, 6242, 6209, 6145, 6080, 4885, 4891, 4875, 4859, 4843, 5194, 5546, 5898,
  6751, 6622, 6493, 6364, 6235, 6326, 6417, 6509, 6493, 6476, 6460, 6444, 6391, 6338, 6284,
  3322, 3225, 3128, 3031, 2933, 2836, 2755, 2683, 2674, 2665, 2657, 2648, 2639, 2886, 3260,
  3009, 2944, 2868, 2771, 2673, 2577, 2486, 2628, 2699, 2770, 2840, 2895, 2886, 3133, 3507,
  2906, 2843, 2804, 2768, 2677, 2586, 2495, 2324, 2394, 2465, 2536, 2607, 2678, 2583, 2886,
  2744, 2736, 2729, 2721, 2713, 2706, 2668, 2620, 2592, 2570, 2548, 2526, 2504, 2699, 3002,
  2839, 2832, 2825, 2817, 2810, 2803, 2752, 2691, 2648, 2623, 2598, 2581, 2568, 2870, 3101,
  3011, 2933, 2856, 2778, 2701, 2581, 2528, 2487, 2574, 2660, 2746, 2832, 2918, 3148, 3028,
  3225, 3122, 2965, 2842, 2736, 2630, 2595, 2595, 2681, 2767, 2674, 2490, 2548, 2607, 2667,
  3299, 3194, 3088, 2982, 2889, 2888, 2866, 2819, 2690, 2749, 2809, 2869, 2928, 2946, 2914,
  3493, 3483, 3470, 3423, 3375, 3327, 3280, 3076, 3135, 3190, 3230, 3269, 3309, 3300, 3268,
  3847, 3800, 3752, 3704, 3687, 3676, 3504, 3353, 3369, 3393, 3432, 3472, 3511, 3551, 3561,
  4376, 4372, 4312, 4149, 4035, 3920, 3806, 3691, 3707, 3731, 3757, 3717, 3677, 3636, 3596,
  4375, 4261, 4146, 4064, 4062, 4053, 4040, 3978, 3942, 3922, 3934, 3946, 3921, 3880, 3840,
  4377, 4428, 4427, 4375, 4311, 4246, 4182, 4117, 4101, 4113, 4125, 4137, 4149, 4168, 4277,
  4803, 4673, 4613, 4634, 4664, 4685, 4620, 4393, 4377, 4497, 4778, 4846, 4858, 4869, 4881,
  5541, 5412, 5282, 5153, 5024, 4895, 4866, 4886, 4870, 4854, 4838, 4821, 4805, 4987, 5268,
  4117, 4020, 3923, 3846, 3773, 3701, 3628, 3555, 3547, 3538, 3848, 4222, 4596, 4971, 5345,
  3504, 3439, 3373, 3308, 3236, 3139, 3042, 3273, 3344, 3415, 3279, 3217, 3591, 3965, 4339,
  3254, 3188, 3123, 3057, 2994, 2946, 2924, 2753, 2824, 2895, 2759, 2582, 2406, 2229, 2532,
  3062, 3054, 3046, 3001, 2949, 2897, 2844, 2796, 2768, 2746, 2995, 3298, 3601, 3904, 4207,
  3099, 3092, 3084, 3040, 2989, 2955, 2924, 2870, 2855, 2842, 2770, 2686, 2603, 2905, 3207,
  3162, 3084, 2951, 2925, 2875, 2824, 2773, 2722, 2808, 2894, 3160, 3462, 3764, 4067, 3947,
  3179, 3022, 2865, 2839, 2838, 2837, 2836, 2828, 2914, 2999, 2944, 2760, 2576, 2391, 2207,
  3200, 3124, 3123, 3123, 3122, 3121, 3099, 3051, 2731, 2547, 2362, 2329, 2389, 2406, 2374,
  3296, 3295, 3293, 3289, 3284, 3272, 3224, 3012, 3072, 3126, 3106, 3073, 3041, 3009, 2976,
  3648, 3637, 3632, 3628, 3623, 3612, 3440, 3268, 3284, 3300, 3270, 3237, 3217, 3256, 3296,
  3775, 3773, 3770, 3768, 3765, 3733, 3561, 3446, 3462, 3478, 3494, 3510, 3530, 3570, 3530,
  3796, 3818, 3816, 3814, 3812, 3808, 3795, 3782, 3798, 3814, 3789, 3754, 3748, 3760, 3816,
  3927, 3978, 4030, 4082, 4133, 4143, 4100, 4035, 4019, 4031, 4067, 4176, 4285, 4394, 4503,
  4151, 4202, 4242, 4263, 4284, 4306, 4339, 4161, 4270, 4443, 4724, 5005, 5241, 5253, 5265,
  4676, 4547, 4417, 4413, 4434, 4454, 4475, 4496, 4479, 4463, 4695, 4975, 5256, 5537, 5818,
  4832, 4760, 4687, 4614, 4542, 4469, 4396, 4277, 4319, 4693, 5068, 5442, 5816, 6190, 6564,
  4219, 4154, 4089, 4023, 3956, 3884, 3811, 3692, 3734, 4108, 4482, 4896, 4720, 4543, 4366,
  3644, 3582, 3517, 3451, 3386, 3320, 3255, 3199, 3023, 2846, 2669, 2492, 2316, 2139, 2559,
  3422, 3369, 3317, 3264, 3212, 3159, 3116, 3069, 3109, 3412, 3715, 4018, 4321, 4625, 4830,
  3344, 3293, 3257, 3226, 3195, 3164, 3133, 3058, 3066, 2982, 2899, 2816, 2732, 2745, 3047,
  3255, 3248, 3196, 3145, 3094, 3043, 2991, 2900, 3016, 3318, 3620, 3922, 4225, 4527, 4407,
  3169, 3168, 3168, 3167, 3166, 3148, 3097, 3006, 3121, 3424, 3405, 3220, 3036, 2852, 2667,
  3090, 3101, 3104, 3096, 3095, 3095, 3094, 3093, 2909, 2724, 2540, 2356, 2205, 2116, 2040,
  3163, 3158, 3153, 3149, 3144, 3167, 3152, 3151, 2967, 2910, 2804, 2772, 2739, 2707, 2675,
  3257, 3252, 3247, 3242, 3238, 3213, 3210, 3210, 3251, 3267, 3237, 3204, 3172, 3140, 3132,
  3368, 3347, 3340, 3338, 3335, 3333, 3331, 3331, 3372, 3388, 3404, 3420, 3436, 3444, 3436,
  3472, 3470, 3468, 3465, 3464, 3496, 3548, 3600, 3616, 3632, 3648, 3642, 3640, 3738, 3847,
  3599, 3615, 3667, 3718, 3770, 3822, 3873, 3925, 3910, 3989, 4098, 4207, 4316, 4425, 4534,
  3774, 3795, 3816, 3849, 3900, 3951, 4003, 4047, 4156, 4265, 4374, 4648, 4929, 5210, 5296,
  4015, 4036, 4057, 4077, 4098, 4119, 4139, 4178, 4280, 4561, 4842, 5123, 5404, 5685, 5966,
  5375, 5302, 5230, 5157, 5077, 4942, 4807, 4672, 4604, 4535, 4467, 4786, 5160, 5534, 5908,
  4762, 4697, 4631, 4566, 4491, 4356, 4222, 4087, 4018, 3950, 3881, 4267, 4727, 5186, 5220,
  4222, 4150, 4077, 4011, 3945, 3880, 3815, 3762, 3585, 3409, 3232, 3070, 3012, 2954, 3413,
  3905, 3852, 3800, 3747, 3689, 3546, 3494, 3552, 3592, 3895, 4198, 4489, 4537, 4389, 4240,
  3629, 3472, 3425, 3394, 3363, 3332, 3243, 3154, 3192, 3230, 3147, 3063, 2980, 2904, 2886,
  3440, 3433, 3382, 3331, 3273, 3184, 3143, 3102, 3092, 3082, 3119, 3390, 3693, 3995, 3875,
  3341, 3312, 3311, 3310, 3310, 3274, 3169, 3064, 3118, 3171, 3068, 2883, 2699, 2515, 2462,
  3195, 3246, 3249, 3212, 3175, 3153, 3152, 3152, 2967, 2783, 2695, 2679, 2662, 2572, 2395,
  3176, 3171, 3166, 3210, 3255, 3259, 3233, 3196, 3196, 3186, 3169, 3012, 2851, 2819, 2787,
  3269, 3265, 3255, 3223, 3196, 3200, 3201, 3201, 3286, 3302, 3271, 3243, 3243, 3244, 3244,
  3327, 3295, 3288, 3286, 3284, 3284, 3285, 3324, 3340, 3356, 3373, 3387, 3387, 3400, 3414,
  3420, 3418, 3418, 3418, 3418, 3450, 3502, 3554, 3570, 3543, 3501, 3468, 3489, 3510, 3527,
  3502, 3509, 3525, 3540, 3588, 3639, 3691, 3743, 3727, 3748, 3769, 3816, 3925, 4034, 4143,
  3558, 3600, 3645, 3690, 3740, 3792, 3844, 3865, 4031, 4312, 4593, 4841, 4862, 4883, 4904,
  3799, 3819, 3840, 3860, 3884, 3929, 3974, 4019, 4062, 4105, 4148, 4399, 4680, 4961, 5242,
  5918, 5845, 5741, 5607, 5472, 5337, 5202, 5068, 4999, 4931, 4862, 4794, 4725, 4878, 5252,
  5349, 5284, 5215, 5143, 5057, 4922, 4788, 4653, 4595, 4537, 4471, 4403, 4334, 4530, 4989,
  4811, 4739, 4666, 4594, 4521, 4452, 4387, 4334, 4158, 4040, 3982, 3924, 3866, 3808, 4267,
  4388, 4339, 4216, 4134, 4082, 4029, 3977, 4035, 4075, 4329, 4245, 4096, 3947, 3798, 3650,
  4024, 3867, 3710, 3553, 3459, 3428, 3339, 3274, 3288, 3326, 3242, 3192, 3173, 3155, 3137,
  3626, 3619, 3541, 3476, 3435, 3393, 3352, 3311, 3301, 3291, 3281, 3271, 3285, 3463, 3343,
  3485, 3449, 3412, 3375, 3368, 3332, 3227, 3176, 3176, 3230, 3126, 2969, 2952, 2935, 2919,
  3340, 3390, 3393, 3356, 3319, 3282, 3245, 3210, 3185, 3169, 3152, 3135, 3119, 3029, 2852,
  3203, 3253, 3281, 3285, 3289, 3294, 3267, 3230, 3230, 3231, 3231, 3227, 3210, 3113, 2936,
  3267, 3236, 3222, 3226, 3230, 3235, 3235, 3235, 3302, 3310, 3310, 3311, 3311, 3311, 3319,
  3276, 3244, 3238, 3238, 3238, 3238, 3239, 3278, 3295, 3303, 3308, 3321, 3335, 3349, 3363,
  3347, 3347, 3347, 3348, 3348, 3358, 3392, 3443, 3402, 3392, 3413, 3434, 3448, 3462, 3476,
  3405, 3411, 3427, 3443, 3459, 3475, 3508, 3560, 3545, 3566, 3587, 3608, 3629, 3650, 3751,
  3456, 3501, 3546, 3591, 3613, 3628, 3662, 3699, 3742, 3855, 4136, 4211, 4232, 4253, 4274,
  3582, 3602, 3635, 3680, 3725, 3770, 3815, 3859, 3903, 3946, 3989, 4032, 4075, 4237, 4517,
  6047, 5913, 5778, 5643, 5508, 5374, 5239, 5410, 5348, 5279, 5211, 5142, 5074, 5005, 4937,
  5558, 5712, 5639, 5567, 5481, 5347, 5212, 5077, 5019, 4961, 4903, 4839, 4771, 4702, 4674,
  5020, 4947, 4875, 4802, 4730, 4657, 4811, 4759, 4705, 4647, 4589, 4531, 4473, 4415, 4283,
  4544, 4587, 4531, 4478, 4426, 4373, 4321, 4310, 4252, 4105, 3956, 3807, 3659, 3510, 3361,
  4150, 4197, 4040, 3883, 3727, 3570, 3502, 3460, 3451, 3467, 3439, 3421, 3403, 3385, 3366,
  3844, 3724, 3704, 3662, 3621, 3580, 3538, 3497, 3487, 3477, 3468, 3458, 3448, 3417, 3390,
  3693, 3561, 3524, 3487, 3450, 3444, 3404, 3362, 3352, 3342, 3295, 3278, 3261, 3245, 3229,
  3547, 3415, 3378, 3341, 3304, 3267, 3226, 3253, 3236, 3220, 3203, 3186, 3170, 3161, 3162,
  3410, 3278, 3235, 3232, 3236, 3241, 3245, 3273, 3256, 3244, 3245, 3245, 3245, 3246, 3246,
  3294, 3234, 3235, 3237, 3242, 3246, 3250, 3256, 3270, 3278, 3279, 3279, 3279, 3280, 3280,
  3302, 3243, 3243, 3243, 3243, 3244, 3244, 3249, 3263, 3276, 3290, 3304, 3318, 3323, 3324,
  3345, 3361, 3376, 3326, 3327, 3327, 3327, 3327, 3341, 3355, 3369, 3382, 3382, 3403, 3424,
  3403, 3418, 3434, 3450, 3466, 3482, 3498, 3444, 3442, 3464, 3485, 3506, 3527, 3548, 3569,
  3367, 3383, 3399, 3415, 3437, 3482, 3526, 3577, 3608, 3651, 3694, 3734, 3755, 3776, 3797,
  3418, 3462, 3507, 3552, 3597, 3642, 3687, 3737, 3768, 3811, 3854, 3897, 3940, 3983, 4026,
  5469, 5334, 5200, 5065, 4930, 4795, 4922, 5661, 5612, 5549, 5480, 5412, 5343, 5275, 5206,
  5115, 5688, 5810, 5737, 5652, 5517, 5382, 5247, 5189, 5131, 5068, 5000, 4931, 4897, 4943,
  4576, 4504, 4432, 4359, 4287, 4408, 4981, 4929, 4885, 4831, 4773, 4715, 4657, 4599, 4498,
  4189, 4622, 4637, 4584, 4532, 4479, 4427, 4455, 4425, 4334, 4185, 4036, 3888, 3739, 3590,
  3813, 4241, 4260, 4103, 3946, 3789, 3672, 3608, 3621, 3687, 3640, 3613, 3595, 3576, 3558,
  3906, 3889, 3835, 3809, 3768, 3727, 3686, 3644, 3634, 3625, 3615, 3605, 3579, 3503, 3489,
  4007, 3699, 3580, 3543, 3506, 3500, 3551, 3509, 3500, 3398, 3351, 3335, 3318, 3302, 3288,
  3861, 3553, 3434, 3397, 3360, 3324, 3275, 3310, 3293, 3276, 3259, 3243, 3228, 3220, 3221,
  3724, 3416, 3291, 3230, 3230, 3235, 3239, 3329, 3314, 3303, 3303, 3304, 3304, 3305, 3305,
  3455, 3284, 3233, 3233, 3235, 3240, 3244, 3254, 3264, 3261, 3261, 3261, 3262, 3262, 3262,
  3464, 3292, 3241, 3241, 3242, 3242, 3242, 3247, 3261, 3275, 3288, 3302, 3308, 3306, 3306,
  3506, 3522, 3538, 3483, 3325, 3325, 3325, 3326, 3339, 3353, 3367, 3365, 3355, 3351, 3372,
  3519, 3535, 3551, 3566, 3582, 3598, 3569, 3414, 3419, 3412, 3433, 3454, 3475, 3496, 3517,
  3294, 3309, 3325, 3341, 3363, 3408, 3457, 3518, 3527, 3560, 3603, 3661, 3703, 3724, 3745,
  3344, 3389, 3434, 3478, 3523, 3568, 3618, 3679, 3687, 3720, 3763, 3806, 3849, 3892, 3935,
  4891, 4756, 4621, 4487, 4352, 4435, 5173, 5912, 5863, 5814, 5750, 5682, 5613, 5545, 5476,
  4672, 5245, 5819, 5908, 5822, 5687, 5553, 5418, 5360, 5297, 5229, 5160, 5120, 5167, 5213,
  4133, 4061, 3988, 3916, 4005, 4578, 5152, 5099, 5055, 5011, 4956, 4898, 4840, 4782, 4681,
  3824, 4257, 4700, 4690, 4638, 4585, 4533, 4562, 4542, 4511, 4414, 4265, 4117, 3968, 3819,
  3477, 3905, 4333, 4322, 4165, 4008, 3891, 3774, 3840, 3906, 3859, 3812, 3787, 3768, 3750,
  3667, 4033, 3982, 3945, 3915, 3874, 3833, 3791, 3782, 3772, 3762, 3741, 3660, 3651, 3637,
  4321, 4013, 3705, 3600, 3563, 3557, 3611, 3656, 3560, 3455, 3408, 3391, 3375, 3361, 3347,
  4175, 3867, 3559, 3454, 3417, 3380, 3332, 3366, 3349, 3333, 3316, 3301, 3287, 3279, 3280,
  3983, 3718, 3409, 3286, 3224, 3228, 3233, 3353, 3339, 3332, 3336, 3337, 3337, 3337, 3338,
  3627, 3445, 3274, 3231, 3231, 3234, 3238, 3252, 3249, 3246, 3249, 3250, 3250, 3250, 3251,
  3625, 3454, 3282, 3240, 3240, 3240, 3240, 3245, 3259, 3273, 3287, 3293, 3290, 3288, 3288,
  3667, 3683, 3699, 3644, 3473, 3323, 3324, 3324, 3338, 3351, 3351, 3348, 3337, 3322, 3320,
  3621, 3636, 3652, 3668, 3684, 3663, 3530, 3375, 3383, 3387, 3381, 3402, 3423, 3444, 3465,
  3220, 3236, 3251, 3267, 3289, 3338, 3399, 3459, 3468, 3477, 3511, 3570, 3632, 3672, 3693,
  3270, 3315, 3360, 3405, 3449, 3498, 3559, 3620, 3629, 3637, 3672, 3715, 3758, 3801, 3844,
  4313, 4178, 4043, 3909, 3948, 4686, 5424, 6163, 6114, 6065, 6016, 5951, 5883, 5814, 5746,
  4229, 4802, 5375, 5949, 5993, 5858, 5723, 5588, 5526, 5457, 5389, 5343, 5390, 5436, 5482,
  3690, 3618, 3545, 3602, 4175, 4749, 5322, 5270, 5226, 5181, 5137, 5082, 5024, 4966, 4865,
  3459, 3892, 4335, 4778, 4744, 4691, 4639, 4668, 4648, 4629, 4596, 4494, 4345, 4197, 4048,
  3141, 3569, 3997, 4425, 4385, 4228, 4110, 3993, 4059, 4125, 4078, 4031, 3984, 3960, 3942,
  3428, 3793, 4159, 4074, 4056, 4021, 3980, 3938, 3929, 3919, 3903, 3817, 3808, 3799, 3785,
  4635, 4327, 4019, 3711, 3619, 3613, 3667, 3722, 3616, 3511, 3464, 3448, 3434, 3420, 3406,
  4489, 4181, 3873, 3565, 3473, 3437, 3388, 3423, 3406, 3389, 3374, 3360, 3346, 3338, 3339,
  4190, 3969, 3700, 3392, 3281, 3222, 3227, 3347, 3333, 3326, 3342, 3346, 3346, 3346, 3347,
  3835, 3614, 3435, 3263, 3229, 3229, 3232, 3245, 3243, 3240, 3255, 3259, 3259, 3259, 3260,
  3786, 3615, 3443, 3272, 3238, 3238, 3238, 3244, 3257, 3271, 3279, 3276, 3273, 3270, 3271,
  3829, 3844, 3860, 3805, 3634, 3463, 3322, 3322, 3336, 3336, 3333, 3330, 3319, 3304, 3289,
  3722, 3738, 3754, 3770, 3756, 3623, 3491, 3336, 3343, 3351, 3355, 3350, 3371, 3392, 3413,
  3146, 3162, 3178, 3193, 3218, 3279, 3340, 3401, 3409, 3418, 3427, 3478, 3541, 3603, 3641,
  3196, 3241, 3286, 3331, 3379, 3440, 3500, 3561, 3570, 3579, 3587, 3623, 3666, 3710, 3753,
  3735, 3600, 3465, 3461, 4199, 4937, 5675, 6414, 6365, 6316, 6267, 6218, 6152, 6084, 6015,
  3735, 4308, 4881, 5455, 5881, 5746, 5612, 5789, 5728, 5659, 5590, 5613, 5659, 5706, 5667,
  3247, 3175, 3199, 3772, 4346, 4919, 5493, 5440, 5396, 5352, 5308, 5264, 5208, 5150, 5049,
  3094, 3527, 3970, 4414, 4857, 4797, 4745, 4774, 4754, 4735, 4715, 4681, 4574, 4426, 4277,
  2805, 3232, 3660, 4088, 4516, 4447, 4330, 4212, 4279, 4345, 4298, 4251, 4204, 4157, 4134,
  3189, 3554, 3919, 4285, 4167, 4166, 4127, 4086, 4076, 4064, 3973, 3965, 3956, 3947, 3933,
  4950, 4641, 4333, 4025, 3717, 3670, 3724, 3778, 3673, 3568, 3521, 3507, 3493, 3479, 3465,
  4804, 4496, 4187, 3879, 3571, 3493, 3445, 3479, 3462, 3447, 3433, 3419, 3405, 3397, 3397,
  4398, 4177, 3956, 3683, 3375, 3276, 3221, 3341, 3326, 3320, 3336, 3352, 3355, 3355, 3356,
  4042, 3821, 3601, 3424, 3253, 3227, 3226, 3239, 3236, 3233, 3249, 3265, 3268, 3268, 3269,
  3947, 3776, 3605, 3433, 3262, 3236, 3237, 3242, 3256, 3264, 3261, 3258, 3255, 3253, 3253,
  3990, 4006, 4021, 3967, 3795, 3624, 3453, 3320, 3321, 3318, 3315, 3312, 3302, 3287, 3272,
  3824, 3840, 3855, 3849, 3716, 3584, 3451, 3296, 3304, 3312, 3319, 3322, 3319, 3340, 3361,
  3246, 3262, 3278, 3271, 3179, 3240, 3300, 3361, 3369, 3378, 3386, 3395, 3450, 3512, 3574,
  3122, 3167, 3212, 3259, 3320, 3381, 3442, 3502, 3511, 3520, 3529, 3537, 3575, 3618, 3661,
  3156, 3022, 2974, 3712, 4450, 5188, 5926, 6665, 6616, 6567, 6518, 6469, 6420, 6353, 6285,
  3156, 3730, 4303, 4877, 5303, 5168, 5302, 6040, 5991, 5929, 5860, 5883, 5929, 5895, 5850,
  2804, 2796, 3369, 3943, 4516, 5090, 5663, 5611, 5566, 5522, 5478, 5434, 5390, 5333, 5232,
  2730, 3162, 3606, 4049, 4492, 4935, 4851, 4880, 4860, 4841, 4822, 4802, 4767, 4655, 4506,
  2478, 2900, 3328, 3756, 4184, 4612, 4549, 4432, 4498, 4557, 4510, 4463, 4415, 4368, 4321,
  2949, 3315, 3680, 4046, 4411, 4259, 4274, 4233, 4223, 4130, 4121, 4113, 4104, 4095, 4081,
  5008, 4996, 4688, 4379, 4071, 3763, 3781, 3835, 3729, 3634, 3621, 3607, 3593, 3579, 3565,
  5118, 4810, 4502, 4193, 3885, 3577, 3502, 3536, 3520, 3506, 3492, 3478, 3464, 3456, 3456,
  4605, 4384, 4164, 3943, 3665, 3357, 3271, 3335, 3320, 3314, 3330, 3346, 3362, 3364, 3365,
  4250, 4029, 3808, 3588, 3413, 3242, 3225, 3233, 3230, 3227, 3243, 3259, 3275, 3277, 3278,
  4109, 3937, 3766, 3595, 3423, 3252, 3235, 3240, 3249, 3246, 3243, 3240, 3238, 3235, 3236,
  4106, 4122, 4122, 3975, 3804, 3633, 3461, 3290, 3295, 3292, 3289, 3286, 3283, 3269, 3254,
  3925, 3941, 3942, 3810, 3677, 3545, 3412, 3257, 3265, 3272, 3280, 3288, 3290, 3288, 3309,
  3348, 3364, 3365, 3232, 3140, 3200, 3261, 3322, 3330, 3337, 3346, 3355, 3364, 3421, 3483,
  3049, 3093, 3140, 3201, 3261, 3322, 3383, 3444, 3452, 3461, 3470, 3479, 3487, 3527, 3570,
  2578, 2487, 3225, 3963, 4701, 5439, 6177, 6916, 6867, 6818, 6769, 6720, 6671, 6622, 6554,
  2578, 3152, 3725, 4298, 4725, 4815, 5553, 6291, 6242, 6193, 6130, 6152, 6122, 6078, 6034,
  2365, 2938, 3512, 4085, 4658, 5232, 5805, 5778, 5735, 5691, 5646, 5602, 5558, 5514, 5416,
  2365, 2798, 3241, 3684, 4127, 4570, 5014, 4986, 4966, 4947, 4928, 4908, 4889, 4852, 4735,
  2239, 2605, 3029, 3457, 3885, 4313, 4741, 4651, 4714, 4705, 4658, 4611, 4563, 4516, 4469,
  2710, 3076, 3441, 3806, 4172, 4537, 4352, 4380, 4287, 4278, 4269, 4261, 4252, 4243, 4229,
  4768, 5134, 5088, 4780, 4472, 4163, 3855, 3891, 3791, 3782, 3769, 3755, 3741, 3727, 3713,
  5376, 5112, 4803, 4495, 4187, 3879, 3570, 3559, 3545, 3531, 3517, 3502, 3488, 3488, 3489,
  4813, 4592, 4371, 4151, 3930, 3648, 3340, 3328, 3314, 3307, 3324, 3340, 3356, 3373, 3374,
  4457, 4237, 4016, 3795, 3575, 3403, 3232, 3227, 3224, 3221, 3237, 3253, 3269, 3286, 3287,
  4281, 4098, 3927, 3756, 3584, 3413, 3242, 3237, 3234, 3231, 3228, 3225, 3223, 3223, 3224,
  4207, 4216, 4083, 3936, 3765, 3593, 3422, 3251, 3258, 3263, 3260, 3257, 3254, 3251, 3236,
  4027, 4035, 3903, 3770, 3638, 3505, 3373, 3218, 3225, 3233, 3241, 3248, 3256, 3258, 3257,
  3449, 3458, 3325, 3193, 3100, 3161, 3222, 3283, 3290, 3298, 3306, 3315, 3323, 3332, 3392,
  2975, 3020, 3081, 3142, 3203, 3263, 3324, 3385, 3394, 3402, 3411, 3420, 3429, 3437, 3479,
  2000, 2738, 3476, 4214, 4952, 5690, 6428, 7167, 7118, 7069, 7020, 6971, 6922, 6873, 6824,
  2000, 2573, 3147, 3720, 4328, 5066, 5804, 6542, 6493, 6444, 6395, 6350, 6306, 6262, 6218,
  2000, 2573, 3147, 3720, 4294, 4867, 5440, 5884, 5864, 5820, 5776, 5732, 5688, 5644, 5599,
  2000, 2433, 2876, 3319, 3762, 4206, 4649, 5092, 5073, 5053, 5034, 5014, 4995, 4975, 4937,
  2000, 2365, 2731, 3159, 3587, 4015, 4443, 4871, 4862, 4853, 4806, 4759, 4711, 4664, 4617,
  2471, 2836, 3202, 3567, 3933, 4298, 4663, 4444, 4435, 4426, 4417, 4409, 4400, 4391, 4377,
  4529, 4895, 5260, 5181, 4872, 4564, 4256, 3948, 3939, 3930, 3917, 3903, 3889, 3875, 3861,
  5583, 5363, 5094, 4786, 4478, 4169, 3861, 3553, 3539, 3525, 3510, 3496, 3482, 3482, 3498,
  5020, 4800, 4579, 4358, 4138, 3917, 3631, 3322, 3308, 3301, 3318, 3334, 3350, 3366, 3383,
  4665, 4444, 4223, 4003, 3782, 3564, 3392, 3221, 3218, 3215, 3231, 3247, 3263, 3279, 3296,
  4488, 4267, 4088, 3916, 3745, 3574, 3402, 3231, 3228, 3225, 3222, 3219, 3216, 3217, 3233,
  4309, 4176, 4044, 3897, 3725, 3554, 3383, 3211, 3219, 3227, 3230, 3227, 3225, 3222, 3219,
  4128, 3996, 3863, 3731, 3598, 3466, 3333, 3178, 3186, 3194, 3201, 3209, 3217, 3224, 3226,
  3551, 3418, 3286, 3153, 3061, 3122, 3183, 3243, 3251, 3259, 3266, 3274, 3283, 3292, 3301,
  2901, 2962, 3022, 3083, 3144, 3205, 3265, 3326, 3335, 3344, 3352, 3361, 3370, 3379, 3387]

theorem aFitZ_length : aFitZ.length = 3375 := by decide +kernel

theorem aFitZ_bounds : (aFitZ.all fun x => Nat.ble 2000 x && Nat.ble x 7167) = true := by
  decide +kernel

/-- `b_fit_zinfall`, `galacticus_truncation/johnsonSUparams.py` 1177-1598. -/
def bFitZ : List Nat := [
  8897, 8876, 8856, 8836, 8815, 8795, 8775, 8754, 8722, 8690, 8657, 8625, 8593, 8560, 8528,
  8712, 8691, 8671, 8651, 8638, 8626, 8614, 8603, 8639, 8675, 8710, 8732, 8700, 8667, 8635,
  8585, 8544, 8532, 8520, 8509, 8497, 8486, 8474, 8496, 8532, 8568, 8604, 8640, 8675, 8711,
  8667, 8625, 8584, 8542, 8500, 8459, 8417, 8439, 8461, 8483, 8505, 8527, 8548, 8570, 8571,
  7889, 7940, 7991, 8042, 8093, 8144, 8187, 8230, 8279, 8327, 8318, 8309, 8300, 8291, 8282,
  8216, 8234, 8277, 8320, 8364, 8407, 8450, 8493, 8487, 8536, 8584, 8633, 8681, 8730, 8778,
  8383, 8397, 8412, 8427, 8441, 8465, 8509, 8552, 8538, 8523, 8509, 8495, 8502, 8550, 8599,
  8533, 8513, 8512, 8527, 8541, 8556, 8571, 8585, 8571, 8557, 8542, 8528, 8514, 8496, 8474,
  8658, 8638, 8618, 8598, 8577, 8557, 8563, 8578, 8564, 8548, 8526, 8504, 8482, 8460, 8438,
  8565, 8545, 8525, 8505, 8485, 8464, 8440, 8415, 8469, 8522, 8503, 8481, 8459, 8437, 8415,
  8285, 8265, 8241, 8216, 8192, 8167, 8142, 8118, 8171, 8225, 8278, 8332, 8386, 8426, 8404,
  8337, 8372, 8406, 8419, 8394, 8369, 8345, 8320, 8199, 8078, 8023, 8076, 8130, 8183, 8237,
  8537, 8572, 8606, 8641, 8676, 8711, 8745, 8745, 8624, 8503, 8382, 8261, 8140, 8019, 8000,
  8363, 8398, 8432, 8467, 8506, 8561, 8616, 8670, 8549, 8428, 8307, 8230, 8321, 8412, 8503,
  8121, 8176, 8230, 8285, 8340, 8395, 8450, 8504, 8595, 8686, 8777, 8868, 8959, 9050, 9141,
  2564, 2512, 2459, 2407, 2354, 2434, 2514, 2594, 2593, 2591, 2590, 2588, 2619, 2650, 2681,
  3008, 2956, 2903, 2851, 2786, 3090, 3393, 3697, 3730, 3533, 3336, 3179, 3210, 3241, 3272,
  3646, 3695, 3998, 4302, 4234, 4167, 4099, 4031, 3704, 3377, 3472, 3566, 3660, 3754, 3298,
  4647, 4674, 4685, 4697, 4709, 4758, 4807, 4576, 4758, 4550, 4341, 4195, 4183, 4171, 4159,
  5141, 5174, 5207, 5241, 5274, 4810, 5080, 5350, 4199, 4153, 4661, 5168, 5289, 5409, 5417,
  5622, 5538, 5454, 5370, 5662, 5818, 6088, 6022, 6169, 6316, 6462, 6944, 7230, 7351, 7471,
  6837, 7186, 7536, 7746, 7884, 8023, 7959, 6887, 7419, 7952, 8339, 8651, 8962, 9161, 9302,
  8315, 8454, 8453, 8285, 8117, 7948, 8113, 7653, 7965, 8199, 8340, 8482, 8623, 8693, 8678,
  8761, 8697, 8632, 8489, 8321, 8889, 9283, 7902, 8043, 8174, 8272, 8370, 8355, 8340, 8325,
  10205, 10066, 9926, 9786, 9722, 9673, 10037, 9248, 9346, 9437, 9346, 9255, 9610, 9965, 9964,
  13615, 13475, 12993, 12439, 12803, 12697, 12495, 11632, 11233, 10886, 10795, 10704, 10613, 10598, 10953,
  15470, 15268, 14848, 14294, 13741, 13470, 13369, 13269, 12131, 12040, 11949, 11858, 11854, 11902, 11951,
  15523, 14870, 14217, 13623, 13522, 13422, 13321, 13013, 13015, 13017, 13019, 12967, 13555, 14905, 16256,
  18031, 18216, 18533, 18850, 18836, 18735, 18635, 14496, 14488, 14443, 14397, 14351, 15525, 16700, 17874,
  20455, 20139, 19823, 19506, 19190, 19507, 19823, 20140, 20094, 20049, 20003, 19957, 19738, 19519, 19299,
  2124, 2071, 2019, 1966, 1914, 1861, 1844, 1845, 1844, 1842, 1841, 1839, 1838, 1985, 2206,
  2239, 2248, 2237, 2184, 2132, 2077, 2010, 2073, 2168, 2262, 2356, 2430, 2429, 2576, 2797,
  2500, 2516, 2539, 2524, 2456, 2389, 2321, 2165, 2259, 2353, 2447, 2542, 2636, 2614, 2818,
  2775, 2802, 2813, 2825, 2837, 2848, 2865, 2859, 2849, 2837, 2826, 2814, 2802, 2934, 3139,
  3321, 3355, 3388, 3421, 3455, 3488, 3518, 3510, 3397, 3352, 3307, 3288, 3283, 3603, 3864,
  4100, 4016, 3933, 3849, 3765, 3607, 3588, 3630, 3776, 3923, 4070, 4216, 4363, 4624, 4465,
  5030, 4901, 4679, 4493, 4325, 4156, 4155, 4239, 4385, 4531, 4427, 4195, 4333, 4475, 4616,
  5738, 5569, 5401, 5233, 5094, 5177, 5193, 5128, 4914, 5056, 5197, 5338, 5479, 5563, 5576,
  6687, 6748, 6794, 6729, 6665, 6600, 6536, 6156, 6297, 6428, 6526, 6623, 6721, 6763, 6776,
  7971, 7906, 7841, 7777, 7824, 7899, 7507, 7185, 7294, 7400, 7498, 7596, 7694, 7792, 7819,
  9680, 9771, 9702, 9341, 9139, 8937, 8735, 8534, 8643, 8749, 8816, 8725, 8634, 8543, 8452,
  10174, 9972, 9770, 9652, 9739, 9762, 9746, 9649, 9675, 9692, 9694, 9696, 9632, 9541, 9450,
  10672, 10877, 10940, 10860, 10760, 10659, 10559, 10458, 10474, 10476, 10478, 10479, 10481, 10509, 10829,
  12149, 11833, 11728, 11871, 12022, 12142, 12042, 11520, 11474, 11716, 12296, 12418, 12420, 12422, 12424,
  14574, 14257, 13941, 13625, 13308, 12992, 12982, 13126, 13080, 13034, 12989, 12943, 12897, 13269, 13849,
  2096, 2043, 1991, 1983, 1984, 1985, 1986, 1987, 1985, 1984, 2168, 2389, 2610, 2831, 3052,
  1994, 2003, 2012, 2021, 2017, 1965, 1914, 2086, 2181, 2275, 2224, 2206, 2427, 2648, 2869,
  2149, 2158, 2167, 2176, 2188, 2214, 2212, 2056, 2150, 2245, 2193, 2113, 2032, 1952, 2157,
  2363, 2390, 2401, 2419, 2438, 2457, 2476, 2470, 2461, 2449, 2617, 2822, 3027, 3232, 3437,
  2765, 2798, 2832, 2862, 2892, 2933, 2975, 2936, 2925, 2920, 2911, 2900, 2890, 3209, 3529,
  3362, 3278, 3097, 3129, 3161, 3191, 3221, 3252, 3398, 3544, 3835, 4154, 4473, 4793, 4633,
  3948, 3726, 3505, 3537, 3619, 3701, 3784, 3859, 4005, 4151, 4077, 3844, 3612, 3379, 3146,
  4563, 4466, 4549, 4631, 4714, 4796, 4812, 4747, 4240, 4008, 3775, 3774, 3915, 3998, 4012,
  5216, 5299, 5384, 5477, 5570, 5638, 5573, 5177, 5318, 5448, 5476, 5489, 5502, 5516, 5529,
  6491, 6564, 6657, 6751, 6844, 6919, 6527, 6135, 6244, 6354, 6371, 6384, 6412, 6510, 6607,
  7181, 7269, 7356, 7444, 7534, 7546, 7154, 6951, 7061, 7171, 7280, 7390, 7497, 7595, 7505,
  7705, 7847, 7934, 8022, 8110, 8180, 8164, 8147, 8257, 8366, 8410, 8435, 8446, 8448, 8595,
  8389, 8594, 8799, 9004, 9209, 9308, 9243, 9142, 9158, 9160, 9241, 9560, 9880, 10200, 10520,
  9238, 9443, 9625, 9769, 9913, 10058, 10210, 9815, 10134, 10552, 11132, 11713, 12197, 12199, 12200,
  11001, 10684, 10368, 10435, 10579, 10722, 10866, 11010, 10964, 10918, 11394, 11975, 12555, 13136, 13716,
  2114, 2115, 2116, 2117, 2118, 2119, 2120, 2093, 2136, 2357, 2579, 2800, 3021, 3242, 3463,
  2012, 2021, 2031, 2040, 2047, 2048, 2049, 2022, 2065, 2286, 2507, 2730, 2650, 2569, 2489,
  1916, 1927, 1936, 1945, 1954, 1963, 1973, 1985, 1904, 1824, 1743, 1663, 1582, 1502, 1777,
  2062, 2081, 2100, 2119, 2138, 2157, 2186, 2207, 2265, 2470, 2675, 2880, 3085, 3289, 3437,
  2348, 2378, 2417, 2460, 2502, 2544, 2587, 2605, 2646, 2636, 2625, 2615, 2605, 2677, 2996,
  2686, 2761, 2791, 2821, 2851, 2881, 2911, 2889, 3050, 3369, 3688, 4008, 4327, 4646, 4487,
  3093, 3176, 3258, 3340, 3423, 3488, 3518, 3495, 3656, 3975, 3930, 3698, 3465, 3232, 3000,
  3490, 3603, 3703, 3779, 3861, 3944, 4026, 4109, 3876, 3643, 3411, 3178, 3000, 2908, 2845,
  4074, 4168, 4261, 4354, 4448, 4575, 4652, 4735, 4502, 4467, 4350, 4363, 4377, 4390, 4403,
  4693, 4786, 4880, 4973, 5067, 5121, 5209, 5304, 5446, 5556, 5573, 5586, 5599, 5613, 5657,
  5341, 5405, 5485, 5572, 5660, 5748, 5836, 5931, 6073, 6183, 6292, 6402, 6511, 6604, 6649,
  5975, 6063, 6150, 6238, 6330, 6494, 6699, 6904, 7014, 7124, 7233, 7293, 7346, 7638, 7958,
  6651, 6780, 6985, 7190, 7395, 7600, 7805, 8010, 8038, 8284, 8604, 8924, 9244, 9564, 9884,
  7391, 7535, 7678, 7847, 8048, 8253, 8458, 8653, 8973, 9293, 9613, 10182, 10762, 11343, 11564,
  8271, 8415, 8559, 8702, 8846, 8990, 9133, 9311, 9566, 10146, 10727, 11307, 11888, 12468, 13048,
  2234, 2235, 2236, 2237, 2233, 2197, 2161, 2126, 2109, 2092, 2075, 2267, 2488, 2709, 2930,
  2132, 2141, 2150, 2159, 2162, 2126, 2090, 2054, 2038, 2021, 2004, 2211, 2452, 2692, 2719,
  2002, 1993, 1985, 1992, 2001, 2010, 2019, 2032, 1951, 1871, 1791, 1720, 1714, 1708, 2006,
  2085, 2104, 2123, 2142, 2165, 2127, 2140, 2215, 2274, 2479, 2683, 2881, 2945, 2908, 2871,
  2249, 2216, 2249, 2292, 2334, 2377, 2387, 2397, 2455, 2513, 2502, 2492, 2482, 2475, 2497,
  2524, 2600, 2630, 2660, 2681, 2659, 2689, 2719, 2757, 2795, 2885, 3178, 3497, 3817, 3657,
  2903, 2959, 3041, 3124, 3206, 3247, 3207, 3166, 3275, 3383, 3266, 3034, 2801, 2568, 2545,
  3193, 3354, 3454, 3503, 3552, 3615, 3698, 3780, 3548, 3315, 3236, 3270, 3304, 3212, 2969,
  3664, 3757, 3851, 4004, 4157, 4252, 4313, 4362, 4417, 4459, 4492, 4283, 4070, 4084, 4097,
  4283, 4376, 4461, 4503, 4552, 4647, 4745, 4843, 5041, 5150, 5167, 5186, 5241, 5296, 5351,
  4830, 4872, 4952, 5040, 5129, 5227, 5325, 5474, 5583, 5693, 5802, 5905, 5960, 6041, 6123,
  5443, 5530, 5626, 5724, 5822, 5986, 6191, 6396, 6506, 6515, 6490, 6481, 6583, 6684, 6776,
  6011, 6121, 6247, 6373, 6568, 6773, 6978, 7183, 7211, 7312, 7414, 7579, 7899, 8218, 8538,
  6489, 6674, 6863, 7052, 7254, 7459, 7664, 7826, 8233, 8813, 9394, 9914, 10016, 10117, 10219,
  7369, 7513, 7657, 7800, 7950, 8139, 8327, 8516, 8663, 8809, 8956, 9482, 10062, 10643, 11223,
  2354, 2354, 2337, 2301, 2265, 2229, 2194, 2158, 2141, 2124, 2107, 2091, 2074, 2176, 2397,
  2227, 2236, 2236, 2227, 2213, 2177, 2141, 2106, 2100, 2094, 2081, 2064, 2048, 2159, 2400,
  2096, 2087, 2079, 2070, 2062, 2062, 2071, 2084, 2003, 1960, 1955, 1949, 1944, 1938, 2236,
  2108, 2132, 2114, 2110, 2123, 2136, 2149, 2224, 2282, 2457, 2453, 2416, 2379, 2342, 2305,
  2221, 2188, 2155, 2122, 2126, 2169, 2179, 2199, 2247, 2305, 2294, 2300, 2321, 2343, 2364,
  2363, 2438, 2433, 2438, 2468, 2498, 2528, 2559, 2596, 2634, 2672, 2710, 2773, 2987, 2827,
  2653, 2702, 2752, 2801, 2878, 2919, 2878, 2897, 2946, 3055, 2938, 2748, 2782, 2816, 2850,
  2943, 3105, 3204, 3254, 3303, 3352, 3401, 3452, 3473, 3507, 3541, 3575, 3609, 3517, 3273,
  3271, 3432, 3560, 3656, 3751, 3847, 3907, 3956, 4011, 4066, 4121, 4171, 4205, 4100, 3856,
  3845, 3887, 3956, 4051, 4146, 4242, 4340, 4438, 4612, 4694, 4750, 4805, 4860, 4915, 4984,
  4298, 4340, 4425, 4523, 4621, 4719, 4817, 4966, 5075, 5158, 5222, 5304, 5386, 5468, 5550,
  4860, 4958, 5056, 5154, 5252, 5367, 5533, 5738, 5713, 5751, 5853, 5954, 6039, 6121, 6203,
  5372, 5482, 5608, 5734, 5860, 5986, 6151, 6356, 6384, 6486, 6587, 6689, 6790, 6892, 7193,
  5841, 6030, 6219, 6407, 6546, 6672, 6838, 7023, 7169, 7442, 8023, 8224, 8325, 8427, 8528,
  6468, 6611, 6777, 6966, 7155, 7344, 7533, 7722, 7868, 8015, 8161, 8307, 8454, 8817, 9398,
  2408, 2372, 2336, 2300, 2264, 2228, 2192, 2205, 2189, 2172, 2156, 2139, 2122, 2105, 2089,
  2277, 2291, 2282, 2274, 2260, 2224, 2188, 2152, 2146, 2141, 2135, 2124, 2107, 2090, 2092,
  2146, 2138, 2129, 2121, 2112, 2104, 2117, 2130, 2122, 2116, 2111, 2105, 2100, 2094, 2056,
  2097, 2087, 2098, 2111, 2124, 2137, 2150, 2176, 2179, 2143, 2106, 2069, 2032, 1995, 1958,
  2192, 2179, 2146, 2113, 2080, 2047, 2058, 2088, 2126, 2183, 2196, 2217, 2238, 2260, 2281,
  2211, 2247, 2296, 2326, 2357, 2387, 2417, 2447, 2485, 2523, 2561, 2598, 2636, 2655, 2678,
  2478, 2504, 2554, 2603, 2652, 2725, 2756, 2786, 2824, 2861, 2866, 2900, 2934, 2968, 3003,
  2768, 2795, 2844, 2893, 2942, 2991, 3028, 3157, 3191, 3225, 3259, 3293, 3327, 3371, 3426,
  3096, 3122, 3160, 3245, 3340, 3436, 3531, 3660, 3694, 3734, 3789, 3844, 3899, 3954, 4009,
  3421, 3524, 3622, 3727, 3822, 3917, 4013, 4099, 4181, 4264, 4320, 4375, 4430, 4485, 4540,
  3874, 3978, 4076, 4174, 4272, 4370, 4471, 4562, 4645, 4727, 4809, 4891, 4973, 5050, 5106,
  4368, 4494, 4620, 4741, 4839, 4937, 5035, 5133, 5215, 5297, 5379, 5461, 5530, 5632, 5733,
  4880, 5006, 5132, 5258, 5384, 5510, 5636, 5752, 5816, 5918, 6019, 6121, 6222, 6324, 6425,
  5277, 5403, 5529, 5655, 5794, 5983, 6172, 6404, 6526, 6672, 6819, 6963, 7064, 7166, 7268,
  5738, 5927, 6115, 6304, 6493, 6682, 6871, 7103, 7225, 7371, 7518, 7664, 7811, 7957, 8103,
  2349, 2313, 2278, 2242, 2206, 2170, 2176, 2280, 2264, 2248, 2231, 2215, 2198, 2181, 2165,
  2255, 2309, 2319, 2311, 2297, 2261, 2225, 2189, 2184, 2178, 2167, 2150, 2133, 2132, 2167,
  2124, 2116, 2107, 2099, 2090, 2100, 2154, 2167, 2154, 2146, 2141, 2135, 2129, 2124, 2084,
  2078, 2100, 2087, 2100, 2113, 2126, 2138, 2178, 2179, 2170, 2133, 2096, 2059, 2022, 1985,
  2162, 2187, 2171, 2138, 2105, 2072, 2048, 2062, 2116, 2208, 2205, 2220, 2241, 2262, 2284,
  2174, 2177, 2255, 2300, 2330, 2360, 2391, 2421, 2459, 2496, 2534, 2572, 2595, 2567, 2603,
  2430, 2414, 2444, 2493, 2542, 2615, 2729, 2760, 2797, 2751, 2756, 2790, 2824, 2859, 2896,
  2720, 2704, 2734, 2783, 2832, 2881, 2909, 3047, 3081, 3115, 3149, 3183, 3219, 3264, 3319,
  3048, 3032, 3050, 3050, 3140, 3236, 3331, 3550, 3586, 3627, 3682, 3737, 3792, 3847, 3902,
  3182, 3296, 3398, 3518, 3622, 3717, 3813, 3876, 3958, 4040, 4096, 4151, 4206, 4261, 4316,
  3635, 3749, 3852, 3950, 4048, 4146, 4247, 4339, 4421, 4503, 4585, 4667, 4749, 4827, 4882,
  4129, 4255, 4381, 4502, 4615, 4713, 4811, 4909, 4991, 5073, 5155, 5238, 5287, 5339, 5440,
  4600, 4726, 4852, 4978, 5104, 5230, 5362, 5489, 5572, 5625, 5726, 5828, 5929, 6031, 6132,
  4842, 4968, 5094, 5220, 5359, 5548, 5774, 6087, 6163, 6288, 6435, 6621, 6771, 6873, 6975,
  5303, 5492, 5680, 5869, 6058, 6247, 6473, 6786, 6862, 6987, 7134, 7280, 7427, 7573, 7720,
  2291, 2255, 2219, 2184, 2148, 2147, 2250, 2354, 2339, 2324, 2307, 2291, 2274, 2257, 2240,
  2233, 2287, 2341, 2348, 2334, 2298, 2262, 2226, 2221, 2210, 2193, 2176, 2173, 2208, 2243,
  2102, 2093, 2085, 2076, 2083, 2137, 2191, 2204, 2191, 2178, 2170, 2165, 2159, 2154, 2114,
  2065, 2086, 2101, 2088, 2101, 2114, 2127, 2166, 2170, 2171, 2161, 2124, 2087, 2050, 2013,
  2133, 2157, 2181, 2163, 2130, 2097, 2073, 2049, 2141, 2232, 2230, 2228, 2244, 2265, 2287,
  2152, 2178, 2178, 2263, 2304, 2334, 2364, 2395, 2432, 2470, 2508, 2535, 2504, 2530, 2566,
  2381, 2366, 2350, 2383, 2432, 2505, 2623, 2733, 2691, 2641, 2646, 2680, 2715, 2752, 2789,
  2672, 2656, 2640, 2673, 2722, 2771, 2799, 2937, 2971, 3005, 3039, 3075, 3112, 3158, 3213,
  2943, 2960, 2944, 2940, 2941, 3036, 3131, 3393, 3430, 3479, 3541, 3596, 3651, 3706, 3761,
  2961, 3061, 3175, 3294, 3415, 3517, 3613, 3657, 3739, 3822, 3884, 3939, 3994, 4049, 4104,
  3396, 3510, 3624, 3726, 3824, 3922, 4024, 4115, 4197, 4279, 4361, 4443, 4526, 4603, 4658,
  3890, 4016, 4142, 4263, 4377, 4489, 4587, 4685, 4767, 4850, 4932, 5014, 5063, 5091, 5147,
  4305, 4431, 4557, 4683, 4809, 4940, 5086, 5213, 5296, 5379, 5433, 5535, 5636, 5738, 5839,
  4407, 4533, 4659, 4785, 4924, 5144, 5457, 5771, 5846, 5922, 6051, 6238, 6435, 6580, 6682,
  4868, 5057, 5246, 5434, 5623, 5843, 6156, 6470, 6545, 6621, 6750, 6896, 7043, 7189, 7336,
  2233, 2197, 2161, 2125, 2117, 2221, 2325, 2428, 2413, 2398, 2383, 2366, 2350, 2333, 2316,
  2211, 2264, 2318, 2372, 2371, 2335, 2299, 2263, 2253, 2236, 2220, 2213, 2249, 2284, 2319,
  2080, 2071, 2063, 2067, 2121, 2175, 2229, 2241, 2228, 2215, 2202, 2195, 2189, 2183, 2144,
  2052, 2073, 2088, 2102, 2089, 2102, 2115, 2154, 2158, 2162, 2163, 2151, 2114, 2077, 2040,
  2104, 2128, 2152, 2176, 2155, 2121, 2098, 2074, 2166, 2257, 2255, 2253, 2251, 2268, 2289,
  2129, 2155, 2182, 2180, 2271, 2308, 2338, 2368, 2406, 2444, 2475, 2440, 2467, 2493, 2528,
  2333, 2317, 2302, 2286, 2322, 2395, 2513, 2631, 2581, 2531, 2536, 2571, 2608, 2645, 2682,
  2623, 2608, 2592, 2576, 2612, 2661, 2689, 2827, 2861, 2895, 2931, 2968, 3005, 3051, 3106,
  2787, 2836, 2849, 2834, 2831, 2836, 2931, 3193, 3230, 3279, 3363, 3424, 3479, 3534, 3589,
  2805, 2854, 2958, 3072, 3191, 3311, 3413, 3457, 3539, 3622, 3706, 3767, 3822, 3877, 3932,
  3157, 3271, 3385, 3499, 3600, 3698, 3800, 3891, 3973, 4055, 4137, 4220, 4302, 4380, 4435,
  3651, 3777, 3903, 4024, 4138, 4252, 4364, 4461, 4544, 4626, 4708, 4791, 4839, 4868, 4896,
  4010, 4137, 4263, 4389, 4519, 4664, 4810, 4937, 5021, 5104, 5187, 5242, 5343, 5445, 5546,
  3972, 4098, 4224, 4350, 4514, 4827, 5141, 5454, 5530, 5605, 5681, 5854, 6051, 6248, 6389,
  4433, 4622, 4811, 4999, 5213, 5526, 5840, 6153, 6229, 6304, 6380, 6512, 6659, 6805, 6952,
  2175, 2139, 2103, 2088, 2192, 2295, 2399, 2503, 2488, 2472, 2457, 2442, 2426, 2409, 2392,
  2175, 2229, 2283, 2337, 2372, 2336, 2300, 2314, 2298, 2281, 2265, 2289, 2324, 2360, 2349,
  2057, 2049, 2050, 2104, 2158, 2212, 2266, 2279, 2265, 2252, 2239, 2225, 2219, 2213, 2174,
  2039, 2060, 2075, 2089, 2104, 2091, 2104, 2143, 2147, 2151, 2155, 2156, 2141, 2104, 2067,
  2074, 2098, 2123, 2147, 2171, 2146, 2123, 2099, 2191, 2282, 2280, 2278, 2276, 2274, 2292,
  2106, 2132, 2159, 2185, 2182, 2280, 2312, 2342, 2380, 2416, 2377, 2403, 2429, 2455, 2491,
  2285, 2269, 2253, 2238, 2222, 2285, 2403, 2521, 2471, 2421, 2426, 2464, 2501, 2538, 2576,
  2575, 2559, 2544, 2528, 2512, 2551, 2579, 2717, 2751, 2787, 2824, 2861, 2899, 2944, 2999,
  2632, 2681, 2729, 2739, 2723, 2722, 2731, 2993, 3030, 3079, 3163, 3247, 3307, 3362, 3417,
  2650, 2698, 2747, 2854, 2968, 3088, 3208, 3257, 3339, 3422, 3506, 3590, 3649, 3704, 3759,
  2917, 3032, 3146, 3260, 3374, 3474, 3576, 3667, 3749, 3831, 3914, 3996, 4078, 4156, 4211,
  3412, 3538, 3664, 3785, 3899, 4013, 4127, 4238, 4320, 4402, 4485, 4567, 4616, 4644, 4673,
  3716, 3842, 3968, 4097, 4243, 4389, 4534, 4662, 4745, 4828, 4912, 4994, 5050, 5152, 5253,
  3677, 3803, 3929, 4058, 4238, 4551, 4865, 5178, 5261, 5336, 5412, 5488, 5667, 5864, 6061,
  3998, 4187, 4376, 4583, 4896, 5210, 5523, 5836, 5912, 5988, 6063, 6139, 6275, 6421, 6568,
  2116, 2081, 2059, 2162, 2266, 2370, 2473, 2577, 2562, 2547, 2532, 2516, 2501, 2485, 2468,
  2116, 2170, 2224, 2278, 2314, 2278, 2285, 2389, 2373, 2357, 2340, 2365, 2400, 2392, 2379,
  2035, 2033, 2087, 2141, 2195, 2249, 2303, 2316, 2302, 2289, 2276, 2262, 2249, 2243, 2203,
  2026, 2047, 2062, 2076, 2091, 2105, 2092, 2131, 2135, 2139, 2143, 2147, 2148, 2132, 2095,
  2046, 2070, 2094, 2118, 2142, 2167, 2148, 2124, 2216, 2301, 2299, 2297, 2295, 2293, 2291,
  2083, 2110, 2136, 2163, 2189, 2183, 2285, 2315, 2353, 2313, 2339, 2366, 2392, 2418, 2454,
  2248, 2251, 2235, 2220, 2204, 2188, 2293, 2411, 2361, 2318, 2352, 2389, 2426, 2464, 2501,
  2527, 2511, 2495, 2479, 2464, 2448, 2469, 2607, 2643, 2680, 2717, 2755, 2792, 2837, 2892,
  2476, 2525, 2574, 2622, 2629, 2613, 2612, 2793, 2830, 2879, 2963, 3047, 3131, 3189, 3244,
  2494, 2543, 2591, 2640, 2750, 2864, 2984, 3057, 3139, 3222, 3306, 3390, 3474, 3532, 3587,
  2678, 2792, 2906, 3021, 3135, 3249, 3352, 3443, 3525, 3608, 3690, 3772, 3855, 3932, 3987,
  3130, 3256, 3384, 3518, 3632, 3746, 3860, 3974, 4057, 4140, 4222, 4304, 4387, 4421, 4449,
  3421, 3548, 3676, 3821, 3967, 4113, 4259, 4386, 4469, 4553, 4636, 4719, 4802, 4859, 4960,
  3382, 3508, 3636, 3782, 3962, 4276, 4589, 4902, 4985, 5068, 5144, 5219, 5295, 5480, 5677,
  3563, 3752, 3953, 4267, 4580, 4893, 5206, 5520, 5595, 5671, 5747, 5822, 5898, 6038, 6184,
  2058, 2029, 2133, 2237, 2340, 2444, 2548, 2651, 2636, 2621, 2606, 2591, 2576, 2560, 2544,
  2058, 2112, 2166, 2220, 2256, 2256, 2359, 2463, 2448, 2433, 2416, 2441, 2435, 2422, 2409,
  2013, 2067, 2121, 2175, 2229, 2283, 2337, 2350, 2338, 2324, 2311, 2298, 2285, 2271, 2233,
  2013, 2034, 2049, 2063, 2078, 2092, 2107, 2120, 2124, 2128, 2132, 2136, 2140, 2140, 2122,
  2023, 2049, 2074, 2098, 2122, 2146, 2170, 2149, 2237, 2263, 2261, 2259, 2257, 2255, 2253,
  2061, 2087, 2113, 2140, 2166, 2193, 2185, 2289, 2250, 2276, 2302, 2328, 2354, 2380, 2416,
  2226, 2252, 2253, 2237, 2221, 2205, 2190, 2301, 2255, 2281, 2314, 2352, 2389, 2426, 2463,
  2422, 2438, 2423, 2407, 2391, 2375, 2359, 2449, 2487, 2524, 2561, 2598, 2636, 2694, 2751,
  2320, 2369, 2418, 2467, 2516, 2519, 2503, 2593, 2630, 2679, 2763, 2847, 2931, 3016, 3072,
  2338, 2387, 2436, 2484, 2533, 2647, 2761, 2857, 2939, 3022, 3106, 3190, 3274, 3358, 3415,
  2459, 2558, 2672, 2786, 2900, 3014, 3129, 3225, 3307, 3389, 3472, 3554, 3636, 3719, 3776,
  2836, 2963, 3109, 3242, 3356, 3471, 3585, 3699, 3782, 3865, 3947, 4030, 4112, 4194, 4225,
  3127, 3254, 3400, 3546, 3691, 3837, 3983, 4110, 4193, 4277, 4360, 4443, 4527, 4610, 4667,
  3088, 3215, 3360, 3506, 3687, 4000, 4313, 4626, 4710, 4793, 4875, 4951, 5027, 5102, 5294,
  3128, 3323, 3637, 3950, 4263, 4576, 4890, 5203, 5279, 5354, 5430, 5506, 5581, 5657, 5800,
  2000, 2104, 2207, 2311, 2415, 2518, 2622, 2726, 2711, 2695, 2680, 2665, 2650, 2635, 2620,
  2000, 2054, 2108, 2162, 2226, 2330, 2434, 2537, 2522, 2507, 2492, 2478, 2465, 2452, 2438,
  2000, 2054, 2108, 2162, 2216, 2270, 2324, 2339, 2342, 2329, 2316, 2303, 2289, 2276, 2263,
  2000, 2021, 2036, 2050, 2065, 2079, 2094, 2108, 2112, 2116, 2120, 2124, 2128, 2132, 2132,
  2000, 2026, 2053, 2077, 2101, 2125, 2150, 2174, 2200, 2226, 2224, 2222, 2220, 2218, 2216,
  2038, 2064, 2091, 2117, 2144, 2170, 2196, 2186, 2212, 2239, 2265, 2291, 2317, 2343, 2379,
  2203, 2229, 2256, 2254, 2239, 2223, 2207, 2191, 2217, 2243, 2277, 2314, 2352, 2389, 2426,
  2266, 2315, 2328, 2312, 2297, 2281, 2265, 2249, 2287, 2324, 2361, 2398, 2436, 2494, 2578,
  2164, 2213, 2262, 2311, 2360, 2409, 2409, 2393, 2430, 2479, 2563, 2647, 2731, 2816, 2900,
  2182, 2231, 2280, 2329, 2378, 2429, 2543, 2657, 2739, 2822, 2906, 2990, 3074, 3158, 3242,
  2303, 2352, 2455, 2569, 2683, 2797, 2911, 3025, 3107, 3189, 3272, 3354, 3436, 3519, 3603,
  2541, 2687, 2833, 2967, 3081, 3195, 3309, 3423, 3506, 3590, 3672, 3755, 3837, 3919, 4002,
  2832, 2978, 3124, 3270, 3416, 3561, 3707, 3834, 3918, 4001, 4084, 4168, 4251, 4334, 4417,
  2793, 2939, 3085, 3230, 3411, 3724, 4037, 4351, 4434, 4517, 4601, 4682, 4758, 4834, 4910,
  2693, 3007, 3320, 3633, 3946, 4260, 4573, 4886, 4962, 5038, 5113, 5189, 5265, 5340, 5416]

theorem bFitZ_length : bFitZ.length = 3375 := by decide +kernel

theorem bFitZ_bounds : (bFitZ.all fun x => Nat.ble 1502 x && Nat.ble x 20455) = true := by
  decide +kernel

/-- `a_fit`, `galacticus_truncation/johnsonSUparams_MW_rmax30kpc.py` 3-377. -/
def aFit30 : List Nat := [
  7847, 7847, 7847, 7847, 7848, 7849, 7850, 7851, 7761, 7672, 7582, 7493, 7403, 7313, 7239,
  7694, 7694, 7694, 7696, 7693, 7694, 7695, 7696, 7606, 7517, 7427, 7353, 7337, 7320, 7304,
  7532, 7532, 7532, 7534, 7537, 7540, 7543, 7541, 7467, 7450, 7434, 7418, 7402, 7386, 7370,
  7432, 7432, 7432, 7434, 7437, 7440, 7443, 7458, 7456, 7449, 7433, 7417, 7400, 7384, 7368,
  7412, 7412, 7412, 7403, 7384, 7365, 7369, 7383, 7381, 7379, 7377, 7375, 7368, 7352, 7336,
  7373, 7373, 7373, 7365, 7345, 7325, 7305, 7292, 7310, 7308, 7306, 7304, 7302, 7300, 7298,
  7308, 7308, 7308, 7287, 7240, 7220, 7201, 7187, 7205, 7223, 7241, 7259, 7257, 7255, 7253,
  7292, 7292, 7292, 7271, 7224, 7177, 7130, 7083, 7101, 7118, 7136, 7154, 7171, 7189, 7207,
  7308, 7308, 7308, 7288, 7241, 7297, 7354, 7411, 7277, 7143, 7009, 7027, 7045, 7063, 7080,
  7488, 7488, 7488, 7512, 7569, 7626, 7683, 7739, 7605, 7471, 7337, 7203, 7069, 6936, 6954,
  7594, 7594, 7594, 7619, 7675, 7732, 7789, 7845, 7792, 7747, 7613, 7479, 7345, 7211, 7077,
  7455, 7455, 7455, 7500, 7603, 7707, 7764, 7821, 7767, 7722, 7676, 7630, 7584, 7450, 7316,
  7264, 7264, 7264, 7309, 7413, 7517, 7620, 7718, 7702, 7658, 7612, 7567, 7521, 7475, 7429,
  7178, 7178, 7178, 7171, 7154, 7257, 7361, 7458, 7443, 7437, 7430, 7424, 7381, 7335, 7289,
  7272, 7272, 7272, 7265, 7248, 7230, 7213, 7196, 7189, 7183, 7177, 7171, 7165, 7159, 7147,
  4637, 4637, 4637, 4611, 4551, 4501, 4502, 4503, 4413, 4324, 4472, 4671, 4870, 5070, 5269,
  4727, 4727, 4727, 4704, 4644, 4583, 4523, 4463, 4662, 4862, 5061, 5260, 5280, 5264, 5247,
  4970, 4970, 4970, 4947, 4894, 4841, 4788, 4728, 4927, 4954, 4982, 5009, 5029, 5013, 4997,
  4764, 4764, 4764, 4751, 4755, 4758, 4762, 5202, 5100, 4998, 5025, 5053, 5073, 5057, 5040,
  4673, 4673, 4673, 4675, 4679, 4863, 5085, 5743, 5659, 5557, 5454, 5352, 5250, 5234, 5218,
  4674, 4674, 4674, 4770, 4992, 5214, 5436, 5541, 5566, 5464, 5362, 5260, 5175, 5173, 5171,
  4743, 4743, 4743, 4721, 4673, 4895, 5117, 5339, 5108, 5134, 5159, 5184, 5100, 5098, 5096,
  5098, 5098, 5098, 5077, 5028, 4979, 4930, 4881, 4906, 4932, 4957, 4983, 5007, 5025, 5042,
  5170, 5170, 5170, 5149, 5100, 5070, 5127, 5183, 5049, 4915, 4913, 4938, 4963, 4989, 4950,
  5620, 5620, 5620, 5524, 5333, 5303, 5360, 5416, 5282, 5148, 5146, 5107, 5054, 5001, 4949,
  6040, 6040, 6040, 5979, 5953, 5942, 5999, 6056, 5868, 5681, 5628, 5575, 5508, 5374, 5240,
  6773, 6773, 6773, 6762, 6736, 6734, 6791, 6847, 6660, 6472, 6285, 6097, 5935, 5801, 5667,
  6857, 6857, 6857, 6846, 6820, 6795, 6770, 6744, 6557, 6369, 6182, 5994, 5839, 5826, 5780,
  6466, 6466, 6466, 6458, 6441, 6415, 6390, 6365, 6177, 5989, 5802, 5796, 5790, 5693, 5577,
  6731, 6731, 6731, 6580, 6232, 5942, 5924, 5907, 5901, 5895, 5798, 5683, 5567, 5451, 5335,
  3212, 3212, 3212, 3186, 3125, 3065, 3005, 3076, 3233, 3433, 3632, 3831, 4030, 4229, 4429,
  3455, 3455, 3455, 3429, 3499, 3442, 3389, 3336, 3364, 3391, 3423, 3580, 3780, 3979, 4178,
  3836, 3836, 3836, 3813, 3759, 3706, 3653, 3600, 3628, 3655, 3683, 3710, 3738, 3770, 3927,
  4042, 4042, 4042, 4019, 3966, 3913, 3860, 4075, 3717, 3615, 3643, 3670, 3698, 3725, 3753,
  4121, 4121, 4121, 4217, 4439, 4492, 4439, 4654, 4297, 4195, 4093, 3990, 3888, 3916, 3943,
  4076, 4076, 4076, 4172, 4394, 4616, 4671, 4685, 4580, 4556, 4454, 4352, 4250, 4148, 4045,
  4381, 4381, 4381, 4360, 4311, 4262, 4214, 4227, 4122, 4147, 4173, 4198, 4175, 4072, 3970,
  4063, 4063, 4063, 4042, 3993, 3944, 3895, 3867, 3869, 3895, 3920, 3945, 3971, 3996, 4022,
  4815, 4815, 4815, 4794, 4765, 4543, 4321, 4100, 4047, 3994, 3942, 3944, 3969, 3995, 4020,
  5316, 5316, 5316, 5220, 4998, 4776, 4554, 4333, 4280, 4227, 4175, 4122, 4069, 4016, 4019,
  5513, 5513, 5513, 5417, 5195, 4973, 4827, 4802, 4848, 4660, 4626, 4573, 4520, 4467, 4415,
  5766, 5766, 5766, 5746, 5720, 5695, 5670, 5644, 5690, 5503, 5315, 5128, 4940, 4906, 4853,
  6489, 6489, 6489, 6478, 6453, 6427, 6402, 6054, 6023, 5835, 5647, 5460, 5272, 5085, 5021,
  7000, 7000, 7000, 6989, 6641, 6293, 5944, 5596, 5565, 5378, 5190, 5126, 5010, 4894, 4778,
  6687, 6687, 6687, 6536, 6188, 5840, 5492, 5295, 5231, 5115, 4999, 4883, 4767, 4651, 4536,
  3155, 3155, 3155, 3129, 3069, 3009, 3108, 3260, 3392, 3541, 3740, 3939, 4138, 4337, 4536,
  3465, 3465, 3465, 3531, 3683, 3624, 3565, 3512, 3540, 3573, 3607, 3739, 3888, 4087, 4286,
  4013, 4013, 4013, 3989, 3936, 3883, 3830, 3777, 3804, 3832, 3859, 3887, 3920, 4027, 3926,
  3725, 3725, 3725, 3702, 3649, 3596, 3868, 4251, 3734, 3322, 3349, 3377, 3404, 3432, 3459,
  4115, 4115, 4115, 4212, 4228, 4175, 4448, 4831, 4314, 3901, 3799, 3697, 3595, 3622, 3650,
  4070, 4070, 4070, 4166, 4388, 4408, 4435, 4488, 4301, 4167, 4161, 4058, 3956, 3854, 3752,
  4069, 4069, 4069, 4048, 3999, 3950, 3977, 4030, 3843, 3710, 3735, 3760, 3786, 3779, 3677,
  4007, 4007, 4007, 3985, 3937, 3888, 3864, 3848, 3836, 3834, 3859, 3885, 3910, 3935, 3961,
  4769, 4769, 4769, 4762, 4746, 4525, 4303, 4081, 4028, 3976, 3923, 3911, 3909, 3934, 3960,
  5374, 5374, 5374, 5278, 5056, 4834, 4612, 4391, 4338, 4285, 4233, 4180, 4127, 4096, 4085,
  5404, 5404, 5404, 5307, 5086, 4864, 4642, 4470, 4945, 4758, 4734, 4704, 4651, 4598, 4545,
  5657, 5657, 5657, 5561, 5389, 5363, 5338, 5312, 5788, 5600, 5413, 5225, 5038, 5014, 4984,
  6157, 6157, 6157, 6146, 6121, 6095, 6070, 5722, 5788, 5601, 5413, 5226, 5038, 5194, 5162,
  6668, 6668, 6668, 6657, 6309, 5961, 5612, 5264, 5521, 5333, 5146, 5114, 5060, 4944, 4828,
  6363, 6363, 6363, 6212, 5864, 5516, 5352, 5251, 5219, 5165, 5050, 4934, 4818, 4702, 4586,
  3099, 3099, 3099, 3073, 3013, 3139, 3292, 3444, 3576, 3708, 3848, 4047, 4246, 4445, 4644,
  3649, 3649, 3649, 3715, 3868, 3808, 3748, 3689, 3722, 3757, 3791, 3923, 4055, 4195, 4394,
  4131, 4131, 4131, 4171, 4112, 4059, 4006, 3953, 3981, 4008, 4036, 4069, 4189, 4047, 3867,
  3527, 3527, 3527, 3504, 3451, 3662, 4045, 4428, 3910, 3393, 3238, 3266, 3293, 3321, 3349,
  3987, 3987, 3987, 3964, 3911, 4241, 4624, 4717, 4490, 3973, 3506, 3404, 3302, 3329, 3357,
  4064, 4064, 4064, 4160, 4144, 4185, 4238, 4291, 4104, 3916, 3755, 3765, 3663, 3561, 3459,
  3757, 3757, 3757, 3736, 3687, 3727, 3780, 3833, 3646, 3459, 3297, 3323, 3348, 3374, 3384,
  3950, 3950, 3950, 3929, 3880, 3861, 3845, 3829, 3817, 3806, 3798, 3824, 3849, 3875, 3900,
  4750, 4750, 4750, 4743, 4728, 4506, 4284, 4062, 4010, 3957, 3904, 3892, 3881, 3873, 3899,
  5369, 5369, 5369, 5376, 5154, 4932, 4710, 4488, 4435, 4383, 4330, 4277, 4251, 4227, 4215,
  5165, 5165, 5165, 5069, 4847, 4626, 4404, 4471, 5043, 4855, 4832, 4809, 4782, 4729, 4676,
  5502, 5502, 5502, 5451, 5229, 5031, 5006, 4980, 5552, 5364, 5177, 4989, 5206, 5182, 5159,
  5899, 5899, 5899, 5814, 5789, 5763, 5738, 5390, 5456, 5269, 5081, 4894, 5110, 5382, 5350,
  6410, 6410, 6410, 6325, 5977, 5629, 5280, 4932, 5477, 5289, 5102, 5069, 5037, 4995, 4879,
  6040, 6040, 6040, 5889, 5541, 5409, 5308, 5207, 5175, 5142, 5100, 4984, 4868, 4752, 4636,
  3042, 3042, 3042, 3018, 3171, 3323, 3476, 3628, 3760, 3892, 4024, 4155, 4354, 4553, 4752,
  3831, 3831, 3831, 3897, 4050, 3992, 3932, 3872, 3907, 3941, 3976, 4108, 4240, 4372, 4500,
  4033, 4033, 4033, 4140, 4293, 4236, 4183, 4130, 4157, 4185, 4220, 4349, 4169, 3989, 3809,
  3363, 3363, 3363, 3343, 3590, 3838, 4221, 4604, 4087, 3570, 3390, 3210, 3235, 3263, 3290,
  3670, 3670, 3670, 3652, 4035, 4414, 4467, 4520, 4333, 4146, 3632, 3115, 3008, 3036, 3063,
  3902, 3902, 3902, 3882, 3935, 3988, 4041, 4094, 3907, 3719, 3532, 3345, 3368, 3267, 3165,
  3673, 3673, 3673, 3652, 3636, 3689, 3742, 3795, 3608, 3421, 3234, 3222, 3247, 3272, 3298,
  3894, 3894, 3894, 3873, 3858, 3842, 3826, 3811, 3799, 3787, 3775, 3763, 3789, 3814, 3839,
  4729, 4729, 4729, 4722, 4707, 4488, 4267, 4045, 3992, 3939, 3887, 3875, 3863, 3852, 3840,
  5094, 5094, 5094, 5140, 5248, 5029, 4808, 4586, 4533, 4480, 4428, 4405, 4381, 4358, 4346,
  4890, 4890, 4890, 4794, 4572, 4354, 4461, 4569, 5140, 4953, 4929, 4906, 4883, 4859, 4807,
  5226, 5226, 5226, 5194, 5118, 4898, 4676, 4648, 5220, 5032, 4850, 5122, 5394, 5370, 5347,
  5835, 5835, 5835, 5721, 5459, 5431, 5406, 5058, 5124, 4937, 4754, 5026, 5298, 5570, 5538,
  6114, 6114, 6114, 6000, 5652, 5304, 4959, 4857, 5430, 5242, 5059, 5027, 4995, 4963, 4931,
  5716, 5716, 5716, 5568, 5466, 5365, 5264, 5162, 5130, 5098, 5066, 5034, 4919, 4803, 4687,
  3137, 3137, 3137, 3203, 3355, 3508, 3660, 3813, 3944, 4076, 4208, 4339, 4471, 4661, 4860,
  3775, 3775, 3775, 3841, 3993, 4146, 4116, 4056, 4091, 4139, 4271, 4402, 4534, 4622, 4442,
  3869, 3869, 3869, 3976, 4224, 4390, 4360, 4306, 4335, 4383, 4470, 4290, 4110, 3931, 3751,
  3412, 3412, 3412, 3519, 3767, 4015, 4398, 4734, 4263, 3746, 3566, 3386, 3206, 3204, 3232,
  3662, 3662, 3662, 3828, 4164, 4217, 4270, 4323, 4136, 3949, 3761, 3291, 2774, 2772, 2799,
  3662, 3662, 3662, 3685, 3738, 3791, 3844, 3897, 3709, 3522, 3335, 3148, 2961, 2956, 2872,
  3640, 3640, 3640, 3633, 3618, 3671, 3724, 3777, 3589, 3402, 3215, 3203, 3191, 3212, 3237,
  3861, 3861, 3861, 3855, 3839, 3823, 3808, 3792, 3780, 3768, 3757, 3745, 3733, 3753, 3779,
  4454, 4454, 4454, 4447, 4432, 4539, 4364, 4142, 4090, 4041, 4018, 4006, 3994, 3982, 3971,
  4819, 4819, 4819, 4865, 4973, 5080, 4905, 4683, 4631, 4582, 4559, 4535, 4512, 4489, 4477,
  4615, 4615, 4615, 4519, 4344, 4451, 4559, 4666, 5184, 5062, 5038, 5015, 4992, 4968, 4945,
  5059, 5059, 5059, 4945, 4843, 4767, 4545, 4370, 4888, 4766, 5038, 5310, 5582, 5558, 5535,
  5771, 5771, 5771, 5658, 5395, 5133, 5074, 4726, 4792, 4670, 4942, 5214, 5486, 5758, 5726,
  5791, 5791, 5791, 5677, 5329, 5016, 4914, 4813, 5098, 4975, 5247, 5215, 5183, 5151, 5119,
  5567, 5567, 5567, 5523, 5422, 5321, 5220, 5118, 5086, 5054, 5022, 4989, 4957, 4853, 4737,
  3321, 3321, 3321, 3387, 3539, 3692, 3844, 3997, 4128, 4260, 4392, 4524, 4655, 4787, 4968,
  3719, 3719, 3719, 3785, 3937, 4090, 4242, 4240, 4302, 4433, 4565, 4697, 4743, 4563, 4383,
  3705, 3705, 3705, 3812, 4060, 4308, 4486, 4484, 4545, 4592, 4412, 4232, 4052, 3872, 3692,
  3588, 3588, 3588, 3696, 3943, 4191, 4484, 4537, 4349, 3922, 3742, 3563, 3383, 3203, 3174,
  3838, 3838, 3838, 3914, 3967, 4020, 4073, 4126, 3939, 3752, 3564, 3377, 2950, 2770, 2741,
  3508, 3508, 3508, 3531, 3584, 3637, 3690, 3743, 3556, 3368, 3181, 2994, 2807, 2619, 2635,
  3622, 3622, 3622, 3615, 3599, 3652, 3705, 3758, 3571, 3384, 3196, 3185, 3173, 3161, 3176,
  3843, 3843, 3843, 3836, 3820, 3805, 3789, 3773, 3762, 3750, 3738, 3726, 3714, 3703, 3718,
  4179, 4179, 4179, 4172, 4157, 4264, 4372, 4240, 4195, 4172, 4148, 4137, 4125, 4113, 4101,
  4544, 4544, 4544, 4590, 4698, 4805, 4913, 4781, 4736, 4713, 4689, 4666, 4643, 4619, 4608,
  4340, 4340, 4340, 4334, 4442, 4549, 4656, 4764, 4978, 5250, 5226, 5203, 5180, 5156, 5133,
  4995, 4995, 4995, 4881, 4619, 4492, 4360, 4468, 4682, 4954, 5226, 5498, 5770, 5746, 5723,
  5645, 5645, 5645, 5531, 5269, 5006, 4744, 4463, 4586, 4858, 5130, 5402, 5674, 5946, 5914,
  5467, 5467, 5467, 5353, 5073, 4971, 4870, 4769, 4892, 5163, 5435, 5403, 5371, 5339, 5307,
  5523, 5523, 5523, 5479, 5378, 5277, 5175, 5074, 5042, 5010, 4977, 4945, 4913, 4881, 4788,
  3631, 3631, 3631, 3697, 3849, 4002, 4154, 4212, 4208, 4340, 4472, 4603, 4735, 4867, 4999,
  3474, 3474, 3474, 3581, 3734, 3886, 4038, 4191, 4323, 4454, 4586, 4718, 4538, 4358, 4307,
  3432, 3432, 3432, 3539, 3787, 4035, 4282, 4435, 4567, 4387, 4207, 4027, 3847, 3667, 3616,
  3865, 3865, 3865, 3972, 4220, 4136, 4368, 4242, 4062, 3882, 3703, 3523, 3337, 3149, 3319,
  3716, 3716, 3716, 3798, 3851, 3904, 3957, 3832, 3652, 3466, 3278, 3091, 2904, 2717, 2887,
  3507, 3507, 3507, 3530, 3583, 3636, 3689, 3741, 3554, 3367, 3180, 2993, 2805, 2638, 2619,
  3565, 3565, 3565, 3558, 3618, 3651, 3704, 3757, 3570, 3382, 3215, 3196, 3185, 3173, 3161,
  3786, 3786, 3786, 3779, 3764, 3748, 3732, 3792, 3773, 3762, 3750, 3738, 3726, 3714, 3703,
  3970, 3970, 3970, 3964, 3948, 3951, 4059, 4166, 4143, 4119, 4106, 4094, 4082, 4070, 4209,
  4231, 4231, 4231, 4277, 4385, 4492, 4600, 4707, 4684, 4660, 4637, 4614, 4590, 4577, 4715,
  4953, 4953, 4953, 5000, 5107, 5215, 4952, 4690, 4962, 5234, 5211, 5187, 5164, 5141, 4998,
  5557, 5557, 5557, 5443, 5181, 4919, 4656, 4394, 4666, 4938, 5210, 5482, 5754, 5730, 5588,
  5396, 5396, 5396, 5283, 5020, 4758, 4496, 4448, 4434, 4706, 4978, 5250, 5522, 5794, 6066,
  5219, 5219, 5219, 5105, 5057, 4956, 4855, 4753, 4721, 4689, 4657, 4643, 4915, 5186, 5458,
  5508, 5508, 5508, 5464, 5362, 5261, 5160, 5059, 5026, 4994, 4962, 4930, 4897, 4865, 4851,
  4166, 4166, 4166, 4232, 4361, 4402, 4443, 4484, 4455, 4427, 4398, 4496, 4628, 4759, 4891,
  3265, 3265, 3265, 3203, 3356, 3508, 3661, 3789, 3887, 4019, 4150, 4282, 4255, 4227, 4200,
  3216, 3216, 3216, 3154, 3319, 3566, 3814, 3966, 4098, 3918, 3738, 3591, 3596, 3722, 3848,
  4016, 4016, 4016, 3954, 3811, 3668, 3932, 3774, 3594, 3412, 3225, 3128, 3362, 3573, 3699,
  3511, 3511, 3511, 3449, 3626, 3889, 3987, 3619, 3635, 3491, 3304, 3117, 2930, 3164, 3398,
  3547, 3547, 3547, 3579, 3618, 3666, 3719, 3771, 3584, 3397, 3215, 3082, 3070, 3086, 3102,
  3598, 3598, 3598, 3630, 3703, 3732, 3762, 3792, 3628, 3464, 3300, 3280, 3261, 3241, 3227,
  3661, 3661, 3661, 3655, 3658, 3731, 3804, 3877, 3857, 3837, 3818, 3804, 3793, 3781, 3769,
  3871, 3871, 3871, 3871, 3855, 3840, 3824, 3827, 3814, 3802, 3790, 3778, 3944, 4110, 4275,
  4043, 4043, 4043, 4043, 4030, 4111, 4219, 4326, 4303, 4279, 4259, 4285, 4424, 4464, 4504,
  4544, 4544, 4544, 4610, 4726, 4834, 4572, 4309, 4581, 4853, 4830, 4776, 4612, 4491, 4531,
  5237, 5237, 5237, 5212, 4993, 4731, 4468, 4206, 4478, 4750, 5022, 5230, 5202, 5037, 4873,
  4934, 4934, 4934, 4821, 4602, 4543, 4484, 4445, 4435, 4407, 4379, 4587, 4859, 5131, 5403,
  5106, 5106, 5106, 4992, 4954, 4916, 4877, 4789, 4762, 4751, 4740, 4730, 5002, 5273, 5545,
  5503, 5503, 5503, 5486, 5399, 5297, 5196, 5095, 5063, 5030, 4998, 4970, 4960, 4949, 4938,
  4573, 4573, 4573, 4591, 4632, 4674, 4715, 4756, 4727, 4699, 4670, 4642, 4613, 4652, 4784,
  3800, 3800, 3800, 3738, 3891, 3979, 4020, 4061, 4033, 4004, 4043, 4175, 4147, 4209, 4334,
  3672, 3672, 3672, 3610, 3467, 3324, 3345, 3498, 3630, 3538, 3599, 3725, 3851, 3977, 4103,
  3783, 3783, 3783, 3721, 3578, 3435, 3463, 3427, 3358, 3171, 3405, 3576, 3702, 3828, 3954,
  3803, 3803, 3803, 3827, 3799, 3656, 3684, 3649, 3665, 3681, 3697, 3628, 3441, 3675, 3846,
  3564, 3564, 3564, 3589, 3644, 3707, 3762, 3801, 3628, 3547, 3548, 3565, 3581, 3597, 3613,
  3615, 3615, 3615, 3646, 3719, 3792, 3847, 3877, 3713, 3632, 3613, 3593, 3573, 3575, 3591,
  3638, 3638, 3638, 3670, 3743, 3816, 3889, 3962, 3942, 3922, 3903, 3883, 3864, 3847, 3835,
  3746, 3746, 3746, 3746, 3730, 3766, 3839, 3912, 3892, 3873, 3857, 3845, 4010, 4104, 4144,
  4017, 4017, 4017, 3995, 3945, 3916, 3909, 3945, 3929, 4020, 4113, 4153, 4194, 4234, 4274,
  4262, 4262, 4262, 4240, 4275, 4427, 4283, 4020, 4292, 4390, 4226, 4180, 4221, 4261, 4301,
  4751, 4751, 4751, 4726, 4666, 4607, 4463, 4201, 4473, 4571, 4543, 4515, 4487, 4323, 4277,
  4681, 4681, 4681, 4655, 4596, 4537, 4478, 4440, 4429, 4401, 4373, 4346, 4318, 4416, 4688,
  4977, 4977, 4977, 4951, 4913, 4874, 4836, 4798, 4787, 4776, 4766, 4755, 4727, 4825, 5097,
  5390, 5390, 5390, 5374, 5335, 5297, 5232, 5131, 5099, 5079, 5068, 5057, 5047, 5036, 5025,
  4736, 4736, 4736, 4754, 4795, 4836, 4877, 4918, 4890, 4861, 4833, 4804, 4776, 4747, 4720,
  4583, 4583, 4583, 4601, 4642, 4683, 4589, 4446, 4572, 4657, 4628, 4600, 4571, 4550, 4550,
  4385, 4385, 4385, 4323, 4180, 4037, 3894, 3751, 3877, 4003, 4128, 4254, 4339, 4318, 4318,
  4162, 4162, 4162, 4186, 4096, 3953, 3810, 3667, 3793, 3919, 4044, 4141, 4157, 4169, 4170,
  3788, 3788, 3788, 3812, 3868, 3923, 3979, 3888, 3985, 4001, 4018, 4034, 4050, 4062, 4062,
  3618, 3618, 3618, 3642, 3698, 3753, 3809, 3882, 3862, 3879, 3895, 3911, 3927, 3929, 3888,
  3651, 3651, 3651, 3675, 3748, 3821, 3894, 3967, 3947, 3928, 3908, 3889, 3905, 3906, 3867,
  3610, 3610, 3610, 3642, 3715, 3788, 3861, 3934, 3914, 3894, 3875, 3855, 3836, 3826, 3845,
  3717, 3717, 3717, 3752, 3699, 3738, 3811, 3884, 3909, 3940, 3981, 3961, 3941, 3922, 3902,
  3926, 3926, 3926, 3905, 3855, 3840, 3892, 3839, 3860, 3891, 3931, 3971, 4012, 4052, 4033,
  4193, 4193, 4193, 4171, 4121, 4071, 4021, 3972, 4012, 4052, 4093, 4133, 4174, 4151, 4144,
  4395, 4395, 4395, 4370, 4311, 4252, 4202, 4152, 4192, 4233, 4205, 4177, 4149, 4127, 4119,
  4632, 4632, 4632, 4607, 4548, 4489, 4430, 4391, 4381, 4353, 4325, 4297, 4269, 4234, 4192,
  4928, 4928, 4928, 4902, 4864, 4826, 4788, 4749, 4739, 4728, 4717, 4706, 4678, 4643, 4589,
  5207, 5207, 5207, 5190, 5152, 5114, 5075, 5037, 5055, 5052, 5041, 5030, 5019, 5009, 4998,
  4836, 4836, 4836, 4830, 4816, 4834, 4875, 4916, 4888, 4859, 4831, 4804, 4776, 4748, 4721,
  4673, 4673, 4673, 4663, 4649, 4667, 4708, 4749, 4721, 4692, 4664, 4636, 4637, 4637, 4637,
  4543, 4543, 4543, 4527, 4499, 4513, 4448, 4305, 4431, 4491, 4475, 4475, 4476, 4476, 4476,
  4300, 4300, 4300, 4275, 4217, 4224, 4280, 4221, 4300, 4317, 4326, 4326, 4327, 4327, 4327,
  3990, 3990, 3990, 4015, 4070, 4101, 4097, 4093, 4046, 4000, 3989, 4006, 4022, 4022, 4022,
  3827, 3827, 3827, 3825, 3821, 3852, 3907, 3980, 3961, 3977, 3970, 3927, 3881, 3834, 3788,
  3822, 3822, 3822, 3821, 3767, 3786, 3859, 3932, 3912, 3893, 3889, 3908, 3868, 3829, 3787,
  3648, 3648, 3648, 3625, 3571, 3590, 3663, 3736, 3717, 3697, 3694, 3712, 3731, 3749, 3767,
  3920, 3920, 3920, 3908, 3854, 3801, 3747, 3734, 3739, 3744, 3749, 3730, 3710, 3707, 3725,
  3843, 3843, 3843, 3831, 3802, 3773, 3744, 3691, 3712, 3717, 3722, 3727, 3753, 3793, 3773,
  4014, 4014, 4014, 4001, 3972, 3931, 3881, 3832, 3872, 3912, 3938, 3943, 3948, 3941, 3934,
  4222, 4222, 4222, 4211, 4183, 4138, 4088, 4038, 4078, 4119, 4100, 4093, 4086, 4078, 4071,
  4319, 4319, 4319, 4331, 4381, 4375, 4316, 4277, 4267, 4239, 4199, 4165, 4158, 4151, 4144,
  4583, 4583, 4583, 4611, 4642, 4633, 4595, 4556, 4574, 4576, 4565, 4554, 4499, 4444, 4410,
  4789, 4789, 4789, 4802, 4833, 4824, 4786, 4748, 4766, 4783, 4801, 4819, 4820, 4810, 4799,
  5220, 5220, 5220, 5214, 5200, 5186, 5169, 5096, 5043, 5014, 4987, 4959, 4931, 4904, 4876,
  4969, 4969, 4969, 4963, 4949, 4935, 4899, 4863, 4863, 4862, 4834, 4806, 4779, 4755, 4793,
  4859, 4859, 4859, 4843, 4806, 4769, 4732, 4695, 4696, 4696, 4696, 4697, 4695, 4671, 4706,
  4646, 4646, 4646, 4645, 4610, 4573, 4536, 4499, 4499, 4500, 4500, 4497, 4451, 4406, 4376,
  4336, 4336, 4336, 4334, 4330, 4327, 4323, 4288, 4285, 4239, 4192, 4146, 4100, 4054, 4025,
  4132, 4132, 4132, 4130, 4126, 4122, 4116, 4052, 4006, 3959, 3913, 3866, 3823, 3837, 3770,
  4007, 4007, 4007, 3984, 3930, 3927, 3921, 3856, 3810, 3767, 3785, 3804, 3822, 3836, 3765,
  3907, 3907, 3907, 3884, 3830, 3777, 3724, 3683, 3656, 3672, 3691, 3709, 3727, 3746, 3764,
  3835, 3835, 3835, 3812, 3758, 3705, 3655, 3681, 3686, 3691, 3696, 3669, 3685, 3704, 3722,
  3774, 3774, 3774, 3761, 3732, 3702, 3653, 3675, 3680, 3685, 3691, 3696, 3701, 3705, 3678,
  3717, 3717, 3717, 3704, 3675, 3647, 3673, 3761, 3740, 3744, 3749, 3754, 3759, 3752, 3745,
  3791, 3791, 3791, 3803, 3831, 3859, 3885, 3973, 3953, 3956, 3949, 3942, 3935, 3928, 3921,
  3997, 3997, 3997, 4009, 4037, 4065, 4091, 4046, 4060, 4055, 4047, 4040, 4033, 4026, 4019,
  4184, 4184, 4184, 4197, 4228, 4256, 4282, 4235, 4253, 4271, 4289, 4304, 4297, 4290, 4283,
  4418, 4418, 4418, 4431, 4462, 4493, 4517, 4427, 4445, 4463, 4480, 4498, 4516, 4534, 4549,
  6393, 6393, 6393, 6361, 6288, 6214, 6141, 6067, 6015, 5962, 5910, 5857, 5805, 5752, 5707,
  6018, 6018, 6018, 5990, 5933, 5859, 5786, 5712, 5660, 5607, 5555, 5509, 5499, 5469, 5440,
  5642, 5642, 5642, 5613, 5547, 5480, 5414, 5357, 5311, 5301, 5272, 5242, 5213, 5184, 5154,
  5339, 5339, 5339, 5310, 5243, 5177, 5114, 5067, 5055, 5033, 5004, 4975, 4946, 4916, 4887,
  5035, 5035, 5035, 5008, 4945, 4881, 4818, 4771, 4759, 4748, 4736, 4724, 4702, 4673, 4644,
  4811, 4811, 4811, 4784, 4720, 4657, 4594, 4525, 4510, 4482, 4470, 4458, 4446, 4435, 4423,
  4641, 4641, 4641, 4623, 4583, 4526, 4462, 4393, 4366, 4339, 4312, 4298, 4270, 4258, 4246,
  4441, 4441, 4441, 4424, 4383, 4343, 4302, 4262, 4235, 4208, 4181, 4154, 4127, 4100, 4085,
  4241, 4241, 4241, 4224, 4183, 4169, 4139, 4109, 4096, 4075, 4054, 4027, 4000, 3973, 3946,
  4074, 4074, 4074, 4061, 4031, 4001, 3971, 3942, 3928, 3907, 3886, 3866, 3845, 3824, 3797,
  3933, 3933, 3933, 3920, 3890, 3861, 3854, 3872, 3873, 3869, 3848, 3827, 3806, 3785, 3768,
  3820, 3820, 3820, 3816, 3809, 3802, 3795, 3813, 3815, 3816, 3818, 3819, 3815, 3794, 3777,
  3842, 3842, 3842, 3839, 3832, 3825, 3818, 3801, 3802, 3804, 3805, 3807, 3808, 3813, 3822,
  4040, 4040, 4040, 4001, 3910, 3903, 3896, 3879, 3880, 3882, 3887, 3902, 3918, 3933, 3942,
  4367, 4367, 4367, 4328, 4238, 4148, 4058, 3968, 3984, 3999, 4014, 4029, 4045, 4060, 4075]

theorem aFit30_length : aFit30.length = 3375 := by decide +kernel

theorem aFit30_bounds : (aFit30.all fun x => Nat.ble 2619 x && Nat.ble x 7851) = true := by
  decide +kernel

/-- `b_fit`, `galacticus_truncation/johnsonSUparams_MW_rmax30kpc.py` 378-799. -/
def bFit30 : List Nat := [
  16195, 16195, 16195, 16182, 16152, 16121, 16091, 16061, 15907, 15753, 15600, 15446, 15293, 15139, 14998,
  15928, 15928, 15928, 15932, 15900, 15869, 15839, 15809, 15655, 15502, 15348, 15207, 15173, 15139, 15105,
  15555, 15555, 15555, 15559, 15569, 15579, 15589, 15557, 15416, 15382, 15348, 15314, 15280, 15246, 15212,
  15317, 15317, 15317, 15321, 15331, 15341, 15351, 15369, 15374, 15372, 15338, 15303, 15269, 15235, 15201,
  15286, 15286, 15286, 15260, 15202, 15146, 15156, 15174, 15179, 15184, 15189, 15194, 15192, 15158, 15124,
  15238, 15238, 15238, 15212, 15154, 15095, 15036, 14990, 15013, 15018, 15024, 15029, 15034, 15039, 15044,
  15107, 15107, 15107, 15071, 14986, 14927, 14868, 14822, 14846, 14871, 14897, 14922, 14927, 14933, 14938,
  15034, 15034, 15034, 14997, 14913, 14828, 14743, 14654, 14678, 14703, 14729, 14755, 14780, 14806, 14831,
  15109, 15109, 15109, 15073, 14984, 15094, 15205, 15315, 15067, 14819, 14571, 14595, 14620, 14646, 14671,
  15487, 15487, 15487, 15534, 15645, 15755, 15865, 15976, 15728, 15480, 15232, 14984, 14736, 14488, 14512,
  15737, 15737, 15737, 15784, 15895, 16005, 16115, 16226, 16082, 15949, 15701, 15453, 15205, 14957, 14709,
  15457, 15457, 15457, 15556, 15785, 16013, 16123, 16234, 16090, 15957, 15824, 15691, 15558, 15310, 15062,
  15047, 15047, 15047, 15146, 15374, 15603, 15831, 16038, 16001, 15873, 15740, 15607, 15474, 15341, 15208,
  14840, 14840, 14840, 14819, 14771, 15000, 15228, 15435, 15398, 15377, 15356, 15335, 15208, 15075, 14942,
  15052, 15052, 15052, 15031, 14983, 14935, 14887, 14840, 14819, 14798, 14777, 14757, 14736, 14715, 14684,
  6743, 6743, 6743, 6712, 6641, 6577, 6547, 6517, 6363, 6209, 6264, 6364, 6464, 6564, 6663,
  6740, 6740, 6740, 6699, 6628, 6557, 6486, 6415, 6514, 6614, 6714, 6814, 6791, 6757, 6723,
  7109, 7109, 7109, 7068, 6972, 6876, 6780, 6709, 6809, 6789, 6770, 6750, 6728, 6694, 6660,
  6996, 6996, 6996, 6973, 6983, 6993, 6835, 7299, 7168, 7036, 7017, 6997, 6975, 6941, 6907,
  7183, 7183, 7183, 7114, 6956, 7054, 7207, 7982, 7875, 7744, 7612, 7481, 7349, 7315, 7281,
  7118, 7118, 7118, 7184, 7337, 7490, 7643, 7838, 7823, 7692, 7560, 7429, 7321, 7326, 7332,
  7474, 7474, 7474, 7405, 7245, 7398, 7551, 7704, 7780, 7765, 7750, 7735, 7628, 7633, 7638,
  8370, 8370, 8370, 8300, 8140, 7981, 7821, 7661, 7646, 7631, 7616, 7602, 7594, 7619, 7645,
  8446, 8446, 8446, 8376, 8216, 8104, 8215, 8325, 8077, 7829, 7773, 7758, 7743, 7729, 7614,
  9414, 9414, 9414, 9243, 8889, 8777, 8888, 8998, 8750, 8502, 8446, 8331, 8196, 8060, 7924,
  10377, 10377, 10377, 10244, 10067, 9941, 10051, 10161, 9814, 9467, 9331, 9195, 9039, 8791, 8543,
  11626, 11626, 11626, 11549, 11372, 11266, 11377, 11487, 11140, 10793, 10445, 10098, 9789, 9541, 9293,
  12077, 12077, 12077, 12000, 11823, 11646, 11469, 11292, 10944, 10597, 10250, 9902, 9613, 9572, 9439,
  11534, 11534, 11534, 11513, 11465, 11288, 11111, 10934, 10586, 10239, 9892, 9871, 9850, 9664, 9441,
  12313, 12313, 12313, 12029, 11376, 10829, 10781, 10733, 10713, 10692, 10505, 10283, 10061, 9839, 9617,
  2412, 2412, 2412, 2381, 2310, 2239, 2168, 2168, 2259, 2358, 2458, 2558, 2657, 2757, 2857,
  2781, 2781, 2781, 2750, 2750, 2680, 2584, 2488, 2469, 2449, 2403, 2494, 2594, 2694, 2794,
  3208, 3208, 3208, 3166, 3070, 2974, 2879, 2783, 2763, 2744, 2724, 2705, 2685, 2639, 2730,
  3584, 3584, 3584, 3543, 3447, 3351, 3255, 3373, 3073, 2941, 2922, 2902, 2883, 2863, 2844,
  3870, 3870, 3870, 3936, 4089, 4089, 3993, 4111, 3811, 3679, 3548, 3416, 3285, 3265, 3246,
  4162, 4162, 4162, 4229, 4382, 4535, 4495, 4458, 4333, 4274, 4142, 4011, 3879, 3748, 3616,
  5001, 5001, 5001, 4931, 4772, 4612, 4452, 4415, 4290, 4275, 4260, 4245, 4186, 4054, 3923,
  5076, 5076, 5076, 5007, 4847, 4687, 4527, 4462, 4459, 4444, 4429, 4415, 4400, 4385, 4370,
  6455, 6455, 6455, 6386, 6321, 5926, 5530, 5135, 4999, 4863, 4727, 4724, 4710, 4695, 4680,
  7561, 7561, 7561, 7389, 6994, 6599, 6203, 5808, 5672, 5536, 5400, 5264, 5129, 4993, 4990,
  8170, 8170, 8170, 7999, 7603, 7208, 6897, 6720, 6623, 6276, 6333, 6197, 6061, 5925, 5789,
  8924, 8924, 8924, 8837, 8660, 8482, 8305, 8128, 8032, 7684, 7337, 6990, 6643, 6699, 6563,
  10262, 10262, 10262, 10185, 10008, 9831, 9654, 9000, 8873, 8526, 8178, 7831, 7484, 7136, 7021,
  11491, 11491, 11491, 11414, 10761, 10107, 9454, 8800, 8673, 8325, 7978, 7863, 7640, 7418, 7196,
  11440, 11440, 11440, 11157, 10504, 9850, 9197, 8820, 8704, 8482, 8260, 8038, 7816, 7594, 7371,
  2290, 2290, 2290, 2260, 2189, 2118, 2133, 2177, 2262, 2351, 2451, 2551, 2651, 2750, 2850,
  2696, 2696, 2696, 2715, 2759, 2706, 2642, 2546, 2526, 2475, 2413, 2498, 2587, 2687, 2787,
  3258, 3258, 3258, 3224, 3128, 3032, 2936, 2840, 2821, 2801, 2782, 2762, 2711, 2759, 2685,
  3248, 3248, 3248, 3207, 3111, 3015, 3179, 3430, 3025, 2689, 2669, 2650, 2630, 2611, 2591,
  3816, 3816, 3816, 3882, 3849, 3753, 3917, 4169, 3763, 3427, 3296, 3164, 3033, 3013, 2994,
  4108, 4108, 4108, 4175, 4328, 4247, 4237, 4277, 4083, 3934, 3890, 3758, 3627, 3495, 3364,
  4593, 4593, 4593, 4523, 4363, 4203, 4193, 4233, 4039, 3891, 3876, 3861, 3846, 3802, 3670,
  4887, 4887, 4887, 4818, 4658, 4498, 4453, 4447, 4451, 4451, 4436, 4421, 4406, 4392, 4377,
  6314, 6314, 6314, 6312, 6306, 5910, 5515, 5120, 4984, 4848, 4712, 4717, 4716, 4701, 4687,
  7544, 7544, 7544, 7373, 6978, 6583, 6187, 5792, 5656, 5520, 5384, 5248, 5113, 5211, 5215,
  7939, 7939, 7939, 7767, 7372, 6977, 6581, 6241, 6607, 6259, 6437, 6535, 6399, 6263, 6127,
  8693, 8693, 8693, 8521, 8181, 8004, 7827, 7650, 8015, 7668, 7321, 6973, 6626, 6803, 6901,
  9784, 9784, 9784, 9707, 9530, 9353, 9176, 8522, 8532, 8185, 7837, 7490, 7143, 7290, 7240,
  11013, 11013, 11013, 10936, 10283, 9629, 8976, 8322, 8599, 8252, 7904, 7855, 7762, 7540, 7318,
  10857, 10857, 10857, 10574, 9921, 9267, 8950, 8746, 8697, 8604, 8382, 8160, 7938, 7716, 7493,
  2169, 2169, 2169, 2138, 2067, 2098, 2142, 2186, 2272, 2357, 2444, 2544, 2644, 2744, 2843,
  2705, 2705, 2705, 2724, 2768, 2715, 2662, 2603, 2546, 2484, 2422, 2508, 2593, 2680, 2780,
  3236, 3236, 3236, 3244, 3185, 3090, 2994, 2898, 2878, 2859, 2839, 2782, 2850, 2748, 2620,
  2990, 2990, 2990, 2948, 2853, 2985, 3236, 3488, 3083, 2677, 2563, 2543, 2524, 2504, 2485,
  3651, 3651, 3651, 3609, 3513, 3723, 3974, 4040, 3821, 3415, 3043, 2912, 2780, 2761, 2741,
  4054, 4054, 4054, 4121, 3999, 4015, 4055, 4095, 3901, 3707, 3535, 3506, 3374, 3243, 3111,
  4184, 4184, 4184, 4115, 3955, 3971, 4011, 4051, 3858, 3664, 3491, 3477, 3462, 3447, 3418,
  4697, 4697, 4697, 4628, 4468, 4444, 4438, 4432, 4436, 4441, 4443, 4428, 4413, 4398, 4383,
  6299, 6299, 6299, 6296, 6290, 5895, 5500, 5105, 4969, 4833, 4697, 4701, 4706, 4708, 4693,
  7400, 7400, 7400, 7357, 6961, 6566, 6171, 5775, 5639, 5504, 5368, 5232, 5371, 5548, 5553,
  7515, 7515, 7515, 7344, 6949, 6553, 6158, 6122, 6590, 6243, 6420, 6597, 6737, 6601, 6465,
  8393, 8393, 8393, 8290, 7895, 7526, 7349, 7172, 7640, 7293, 6946, 6598, 6832, 7009, 7187,
  9373, 9373, 9373, 9229, 9052, 8875, 8697, 8044, 8054, 7707, 7359, 7012, 7246, 7560, 7511,
  10602, 10602, 10602, 10458, 9804, 9151, 8497, 7844, 8525, 8178, 7830, 7781, 7732, 7662, 7440,
  10274, 10274, 10274, 9991, 9338, 9079, 8876, 8672, 8623, 8574, 8504, 8282, 8060, 7837, 7615,
  2048, 2048, 2048, 2018, 2063, 2107, 2151, 2195, 2281, 2366, 2452, 2537, 2637, 2737, 2836,
  2713, 2713, 2713, 2732, 2776, 2724, 2671, 2618, 2556, 2493, 2433, 2518, 2604, 2689, 2773,
  3083, 3083, 3083, 3153, 3199, 3147, 3051, 2955, 2936, 2916, 2855, 2939, 2811, 2683, 2555,
  2754, 2754, 2754, 2715, 2879, 3042, 3294, 3546, 3140, 2735, 2607, 2479, 2459, 2439, 2420,
  3315, 3315, 3315, 3277, 3529, 3778, 3818, 3859, 3665, 3471, 3067, 2662, 2528, 2508, 2489,
  3820, 3820, 3820, 3753, 3793, 3833, 3873, 3913, 3719, 3525, 3331, 3137, 3121, 2990, 2859,
  3972, 3972, 3972, 3904, 3898, 3938, 3978, 4018, 3824, 3630, 3437, 3441, 3426, 3412, 3397,
  4508, 4508, 4508, 4440, 4434, 4428, 4422, 4416, 4421, 4425, 4430, 4434, 4420, 4405, 4390,
  6280, 6280, 6280, 6277, 6271, 5880, 5485, 5089, 4953, 4818, 4685, 4689, 4694, 4698, 4703,
  6922, 6922, 6922, 6928, 6941, 6549, 6154, 5759, 5623, 5487, 5354, 5532, 5709, 5886, 5891,
  7037, 7037, 7037, 6865, 6470, 6079, 6092, 6105, 6574, 6226, 6404, 6581, 6758, 6935, 6803,
  7915, 7915, 7915, 7838, 7661, 7268, 6873, 6693, 7162, 6815, 6474, 6788, 7102, 7279, 7457,
  9138, 9138, 9138, 8968, 8576, 8396, 8219, 7566, 7576, 7228, 6888, 7202, 7516, 7830, 7781,
  10056, 10056, 10056, 9886, 9233, 8579, 7930, 7727, 8447, 8100, 7760, 7710, 7661, 7612, 7563,
  9691, 9691, 9691, 9413, 9209, 9006, 8802, 8598, 8549, 8500, 8451, 8402, 8181, 7959, 7737,
  2009, 2009, 2009, 2028, 2072, 2116, 2160, 2205, 2290, 2376, 2461, 2547, 2632, 2730, 2830,
  2612, 2612, 2612, 2631, 2675, 2720, 2680, 2627, 2565, 2524, 2609, 2695, 2780, 2835, 2708,
  2846, 2846, 2846, 2917, 3081, 3142, 3103, 3013, 2987, 2946, 3001, 2874, 2746, 2618, 2490,
  2702, 2702, 2702, 2773, 2936, 3100, 3351, 3573, 3198, 2792, 2665, 2537, 2409, 2374, 2355,
  3226, 3226, 3226, 3335, 3556, 3596, 3637, 3677, 3483, 3289, 3095, 2720, 2314, 2279, 2260,
  3553, 3553, 3553, 3571, 3611, 3651, 3691, 3731, 3538, 3344, 3150, 2956, 2762, 2721, 2607,
  3891, 3891, 3891, 3889, 3883, 3923, 3963, 4003, 3809, 3615, 3421, 3426, 3430, 3418, 3403,
  4428, 4428, 4428, 4425, 4419, 4413, 4407, 4401, 4406, 4410, 4415, 4419, 4424, 4412, 4397,
  5801, 5801, 5801, 5798, 5792, 5805, 5468, 5073, 4937, 4845, 5023, 5027, 5032, 5036, 5041,
  6443, 6443, 6443, 6449, 6462, 6475, 6138, 5742, 5606, 5515, 5692, 5870, 6047, 6224, 6229,
  6558, 6558, 6558, 6387, 6049, 6062, 6075, 6089, 6499, 6246, 6423, 6600, 6778, 6955, 7132,
  7560, 7560, 7560, 7390, 7183, 7006, 6610, 6273, 6684, 6430, 6744, 7058, 7372, 7550, 7727,
  8903, 8903, 8903, 8733, 8341, 7949, 7741, 7087, 7097, 6844, 7158, 7472, 7786, 8100, 8051,
  9473, 9473, 9473, 9303, 8650, 8060, 7856, 7653, 7969, 7716, 8030, 7981, 7931, 7882, 7833,
  9427, 9427, 9427, 9339, 9135, 8932, 8728, 8524, 8475, 8426, 8377, 8328, 8279, 8081, 7859,
  2018, 2018, 2018, 2037, 2081, 2125, 2170, 2214, 2299, 2385, 2470, 2556, 2641, 2727, 2823,
  2511, 2511, 2511, 2530, 2574, 2619, 2663, 2636, 2615, 2700, 2786, 2871, 2898, 2770, 2643,
  2610, 2610, 2610, 2681, 2845, 3008, 3085, 3059, 3037, 3064, 2936, 2809, 2681, 2553, 2425,
  2759, 2759, 2759, 2830, 2994, 3157, 3351, 3391, 3197, 2850, 2722, 2594, 2467, 2339, 2290,
  3283, 3283, 3283, 3334, 3375, 3415, 3455, 3495, 3301, 3107, 2913, 2719, 2372, 2244, 2195,
  3412, 3412, 3412, 3429, 3470, 3510, 3550, 3590, 3396, 3202, 3008, 2814, 2620, 2426, 2417,
  3876, 3876, 3876, 3873, 3867, 3908, 3948, 3988, 3794, 3600, 3406, 3411, 3415, 3420, 3410,
  4412, 4412, 4412, 4410, 4404, 4398, 4392, 4386, 4390, 4395, 4399, 4404, 4408, 4413, 4403,
  5322, 5322, 5322, 5320, 5314, 5327, 5340, 5056, 5006, 5183, 5361, 5365, 5370, 5374, 5379,
  5965, 5965, 5965, 5970, 5983, 5996, 6009, 5726, 5676, 5853, 6030, 6207, 6385, 6562, 6566,
  6079, 6079, 6079, 6020, 6033, 6046, 6059, 6072, 6202, 6516, 6693, 6870, 7048, 7225, 7402,
  7325, 7325, 7325, 7155, 6763, 6527, 6243, 6257, 6387, 6700, 7014, 7328, 7642, 7820, 7997,
  8584, 8584, 8584, 8414, 8022, 7630, 7237, 6707, 6800, 7114, 7428, 7742, 8056, 8370, 8321,
  8890, 8890, 8890, 8720, 8190, 7986, 7782, 7579, 7672, 7986, 8300, 8251, 8202, 8152, 8103,
  9353, 9353, 9353, 9265, 9061, 8858, 8654, 8450, 8401, 8352, 8303, 8254, 8205, 8156, 7981,
  2075, 2075, 2075, 2094, 2139, 2183, 2227, 2251, 2248, 2334, 2419, 2505, 2590, 2676, 2761,
  2260, 2260, 2260, 2330, 2375, 2419, 2463, 2507, 2593, 2678, 2764, 2849, 2722, 2594, 2544,
  2324, 2324, 2324, 2395, 2558, 2722, 2886, 2930, 3015, 2888, 2760, 2632, 2504, 2377, 2327,
  2861, 2861, 2861, 2932, 3096, 3059, 3191, 3140, 3012, 2884, 2757, 2629, 2445, 2251, 2371,
  3127, 3127, 3127, 3174, 3214, 3255, 3295, 3244, 3116, 2932, 2738, 2544, 2350, 2156, 2276,
  3359, 3359, 3359, 3376, 3416, 3456, 3497, 3537, 3343, 3149, 2955, 2761, 2567, 2375, 2372,
  3762, 3762, 3762, 3760, 3817, 3854, 3895, 3935, 3741, 3547, 3355, 3352, 3356, 3361, 3365,
  4299, 4299, 4299, 4296, 4290, 4284, 4278, 4335, 4332, 4336, 4341, 4345, 4350, 4354, 4359,
  4895, 4895, 4895, 4892, 4886, 4883, 4896, 4909, 5086, 5263, 5294, 5299, 5303, 5308, 5546,
  5521, 5521, 5521, 5526, 5539, 5552, 5565, 5578, 5756, 5933, 6110, 6287, 6465, 6496, 6734,
  6678, 6678, 6678, 6683, 6696, 6709, 6317, 5925, 6239, 6553, 6730, 6907, 7084, 7262, 7262,
  7849, 7849, 7849, 7679, 7286, 6894, 6502, 6109, 6423, 6737, 7051, 7365, 7679, 7856, 7857,
  8055, 8055, 8055, 7885, 7492, 7100, 6708, 6629, 6593, 6907, 7221, 7535, 7849, 8163, 8477,
  8360, 8360, 8360, 8190, 8112, 7908, 7704, 7501, 7451, 7402, 7353, 7317, 7631, 7945, 8259,
  9275, 9275, 9275, 9187, 8983, 8780, 8576, 8372, 8323, 8274, 8225, 8176, 8127, 8078, 8042,
  2219, 2219, 2219, 2238, 2277, 2297, 2317, 2337, 2319, 2301, 2283, 2346, 2432, 2517, 2603,
  2032, 2032, 2032, 2001, 2045, 2089, 2133, 2173, 2236, 2321, 2407, 2492, 2457, 2421, 2385,
  2100, 2100, 2100, 2068, 2182, 2345, 2509, 2553, 2639, 2511, 2383, 2275, 2259, 2318, 2377,
  2859, 2859, 2859, 2828, 2755, 2683, 2831, 2763, 2635, 2493, 2300, 2185, 2361, 2512, 2571,
  2893, 2893, 2893, 2861, 2962, 3110, 3173, 2998, 3000, 2848, 2654, 2460, 2266, 2442, 2618,
  3222, 3222, 3222, 3251, 3295, 3335, 3375, 3415, 3221, 3027, 2834, 2683, 2679, 2681, 2684,
  3604, 3604, 3604, 3634, 3702, 3739, 3777, 3814, 3623, 3432, 3241, 3236, 3231, 3226, 3229,
  4008, 4008, 4008, 4005, 4015, 4083, 4152, 4220, 4216, 4211, 4206, 4208, 4213, 4217, 4222,
  4570, 4570, 4570, 4559, 4553, 4547, 4541, 4551, 4554, 4558, 4563, 4567, 4848, 5129, 5410,
  5183, 5183, 5183, 5172, 5162, 5171, 5184, 5197, 5374, 5551, 5692, 5755, 5986, 6036, 6085,
  6169, 6169, 6169, 6260, 6315, 6328, 5935, 5543, 5857, 6171, 6348, 6481, 6449, 6434, 6483,
  7419, 7419, 7419, 7395, 7074, 6681, 6289, 5897, 6211, 6525, 6839, 7078, 7044, 7012, 6980,
  7235, 7235, 7235, 7065, 6745, 6688, 6632, 6575, 6542, 6507, 6472, 6712, 7026, 7340, 7654,
  7926, 7926, 7926, 7756, 7700, 7644, 7587, 7415, 7369, 7336, 7302, 7269, 7583, 7897, 8211,
  9094, 9094, 9094, 9070, 8898, 8694, 8490, 8287, 8237, 8188, 8139, 8093, 8060, 8027, 7993,
  2335, 2335, 2335, 2344, 2364, 2384, 2404, 2424, 2406, 2387, 2369, 2351, 2333, 2358, 2444,
  2176, 2176, 2176, 2144, 2189, 2219, 2239, 2259, 2241, 2223, 2248, 2333, 2298, 2317, 2376,
  2282, 2282, 2282, 2250, 2178, 2105, 2132, 2177, 2262, 2188, 2207, 2266, 2325, 2384, 2443,
  2610, 2610, 2610, 2579, 2506, 2434, 2454, 2449, 2369, 2175, 2351, 2459, 2518, 2577, 2636,
  2915, 2915, 2915, 2936, 2934, 2861, 2882, 2876, 2878, 2881, 2883, 2802, 2608, 2784, 2893,
  3074, 3074, 3074, 3095, 3143, 3200, 3255, 3294, 3102, 3018, 3018, 3020, 3022, 3024, 3026,
  3440, 3440, 3440, 3470, 3538, 3607, 3662, 3699, 3508, 3425, 3420, 3415, 3410, 3410, 3412,
  3802, 3802, 3802, 3832, 3900, 3969, 4037, 4106, 4101, 4096, 4091, 4086, 4082, 4081, 4085,
  4280, 4280, 4280, 4269, 4263, 4300, 4368, 4437, 4432, 4427, 4426, 4430, 4711, 4858, 4907,
  4958, 4958, 4958, 4933, 4875, 4830, 4813, 4815, 4892, 5057, 5203, 5252, 5301, 5350, 5400,
  5594, 5594, 5594, 5569, 5623, 5832, 5634, 5242, 5556, 5668, 5636, 5651, 5700, 5749, 5798,
  6573, 6573, 6573, 6548, 6492, 6435, 6238, 5845, 6159, 6271, 6237, 6202, 6167, 6135, 6151,
  6774, 6774, 6774, 6750, 6693, 6636, 6580, 6524, 6490, 6455, 6421, 6386, 6352, 6464, 6778,
  7602, 7602, 7602, 7578, 7521, 7465, 7408, 7352, 7319, 7285, 7252, 7218, 7184, 7296, 7610,
  8660, 8660, 8660, 8636, 8579, 8523, 8405, 8201, 8152, 8112, 8078, 8045, 8012, 7978, 7945,
  2332, 2332, 2332, 2340, 2360, 2380, 2400, 2420, 2402, 2384, 2366, 2348, 2329, 2315, 2313,
  2421, 2421, 2421, 2430, 2450, 2470, 2422, 2350, 2409, 2447, 2429, 2411, 2393, 2383, 2397,
  2506, 2506, 2506, 2475, 2402, 2330, 2257, 2185, 2244, 2303, 2362, 2421, 2459, 2450, 2463,
  2652, 2652, 2652, 2673, 2632, 2560, 2487, 2415, 2474, 2533, 2592, 2636, 2638, 2643, 2657,
  2716, 2716, 2716, 2737, 2786, 2834, 2883, 2842, 2886, 2888, 2890, 2892, 2894, 2900, 2913,
  2893, 2893, 2893, 2914, 2963, 3011, 3060, 3128, 3123, 3126, 3128, 3130, 3132, 3125, 3100,
  3240, 3240, 3240, 3261, 3329, 3398, 3466, 3535, 3530, 3525, 3520, 3515, 3518, 3511, 3480,
  3544, 3544, 3544, 3574, 3643, 3711, 3780, 3848, 3843, 3838, 3833, 3829, 3824, 3830, 3866,
  3959, 3959, 3959, 3994, 3992, 4042, 4110, 4179, 4205, 4248, 4297, 4293, 4288, 4283, 4278,
  4553, 4553, 4553, 4528, 4469, 4448, 4512, 4509, 4536, 4579, 4628, 4677, 4726, 4775, 4771,
  5254, 5254, 5254, 5228, 5170, 5112, 5053, 4995, 5044, 5093, 5142, 5191, 5240, 5221, 5243,
  5852, 5852, 5852, 5828, 5771, 5715, 5656, 5598, 5647, 5696, 5661, 5627, 5592, 5573, 5595,
  6527, 6527, 6527, 6502, 6446, 6389, 6333, 6276, 6243, 6208, 6174, 6139, 6104, 6068, 6043,
  7355, 7355, 7355, 7330, 7274, 7218, 7161, 7105, 7071, 7038, 7004, 6971, 6936, 6900, 6858,
  8072, 8072, 8072, 8048, 7991, 7935, 7878, 7822, 7869, 7857, 7824, 7790, 7757, 7723, 7690,
  2219, 2219, 2219, 2221, 2228, 2242, 2262, 2282, 2264, 2246, 2234, 2232, 2230, 2228, 2225,
  2285, 2285, 2285, 2280, 2286, 2300, 2320, 2340, 2322, 2304, 2293, 2290, 2304, 2318, 2332,
  2385, 2385, 2385, 2386, 2381, 2387, 2354, 2282, 2341, 2367, 2362, 2376, 2390, 2404, 2417,
  2432, 2432, 2432, 2438, 2451, 2484, 2533, 2512, 2546, 2549, 2556, 2569, 2583, 2597, 2611,
  2517, 2517, 2517, 2538, 2587, 2626, 2654, 2681, 2672, 2663, 2660, 2662, 2664, 2678, 2692,
  2693, 2693, 2693, 2705, 2733, 2772, 2821, 2889, 2884, 2886, 2874, 2853, 2843, 2834, 2825,
  3005, 3005, 3005, 3017, 3015, 3053, 3122, 3190, 3185, 3180, 3193, 3229, 3198, 3167, 3145,
  3203, 3203, 3203, 3202, 3200, 3238, 3306, 3375, 3370, 3365, 3378, 3414, 3450, 3485, 3521,
  3710, 3710, 3710, 3715, 3712, 3710, 3708, 3703, 3731, 3758, 3785, 3780, 3775, 3788, 3824,
  3998, 3998, 3998, 4004, 4014, 4025, 4036, 4034, 4060, 4088, 4115, 4142, 4182, 4231, 4226,
  4634, 4634, 4634, 4639, 4650, 4621, 4562, 4504, 4553, 4602, 4642, 4669, 4696, 4719, 4742,
  5221, 5221, 5221, 5217, 5209, 5173, 5115, 5057, 5106, 5155, 5145, 5167, 5190, 5213, 5236,
  5653, 5653, 5653, 5683, 5809, 5848, 5791, 5735, 5701, 5667, 5629, 5615, 5637, 5660, 5683,
  6396, 6396, 6396, 6469, 6549, 6551, 6494, 6438, 6485, 6486, 6453, 6419, 6377, 6335, 6321,
  6999, 6999, 6999, 7033, 7113, 7115, 7059, 7002, 7049, 7097, 7144, 7191, 7192, 7159, 7125,
  2202, 2202, 2202, 2205, 2212, 2218, 2223, 2204, 2190, 2187, 2184, 2182, 2180, 2178, 2175,
  2191, 2191, 2191, 2194, 2200, 2207, 2210, 2213, 2227, 2240, 2237, 2235, 2233, 2233, 2282,
  2258, 2258, 2258, 2259, 2262, 2265, 2268, 2271, 2285, 2299, 2313, 2326, 2339, 2340, 2386,
  2338, 2338, 2338, 2350, 2354, 2357, 2360, 2363, 2377, 2391, 2404, 2417, 2408, 2399, 2399,
  2373, 2373, 2373, 2385, 2412, 2440, 2467, 2472, 2484, 2475, 2466, 2457, 2447, 2439, 2439,
  2481, 2481, 2481, 2493, 2520, 2548, 2573, 2569, 2560, 2551, 2542, 2533, 2526, 2557, 2514,
  2708, 2708, 2708, 2707, 2705, 2732, 2758, 2754, 2745, 2738, 2774, 2810, 2846, 2877, 2831,
  2921, 2921, 2921, 2920, 2918, 2915, 2914, 2926, 2937, 2972, 3007, 3043, 3079, 3115, 3151,
  3206, 3206, 3206, 3205, 3203, 3200, 3201, 3254, 3282, 3309, 3336, 3347, 3382, 3418, 3454,
  3503, 3503, 3503, 3508, 3519, 3529, 3530, 3581, 3608, 3635, 3662, 3690, 3717, 3744, 3755,
  3787, 3787, 3787, 3791, 3802, 3813, 3880, 4012, 4031, 4057, 4085, 4112, 4139, 4162, 4185,
  4187, 4187, 4187, 4217, 4286, 4354, 4421, 4552, 4571, 4598, 4621, 4644, 4667, 4689, 4712,
  4736, 4736, 4736, 4766, 4834, 4903, 4969, 4944, 4994, 5019, 5042, 5064, 5087, 5110, 5133,
  5284, 5284, 5284, 5318, 5399, 5467, 5534, 5505, 5553, 5600, 5647, 5698, 5721, 5743, 5766,
  5866, 5866, 5866, 5901, 5981, 6061, 6134, 6070, 6117, 6164, 6211, 6259, 6306, 6353, 6404,
  2475, 2475, 2475, 2467, 2448, 2429, 2411, 2392, 2377, 2362, 2348, 2333, 2318, 2303, 2292,
  2383, 2383, 2383, 2376, 2365, 2346, 2327, 2308, 2294, 2279, 2264, 2253, 2266, 2266, 2266,
  2290, 2290, 2290, 2283, 2268, 2252, 2237, 2225, 2214, 2227, 2227, 2227, 2227, 2227, 2227,
  2261, 2261, 2261, 2254, 2239, 2223, 2219, 2224, 2237, 2245, 2245, 2245, 2245, 2245, 2245,
  2239, 2239, 2239, 2237, 2233, 2229, 2225, 2229, 2243, 2257, 2270, 2284, 2292, 2292, 2292,
  2301, 2301, 2301, 2299, 2295, 2291, 2287, 2286, 2304, 2301, 2315, 2328, 2342, 2356, 2370,
  2429, 2429, 2429, 2435, 2447, 2439, 2435, 2434, 2445, 2456, 2468, 2486, 2483, 2496, 2510,
  2529, 2529, 2529, 2534, 2546, 2558, 2570, 2583, 2594, 2605, 2616, 2627, 2638, 2649, 2667,
  2734, 2734, 2734, 2739, 2751, 2776, 2790, 2804, 2826, 2845, 2864, 2875, 2886, 2897, 2908,
  2952, 2952, 2952, 2958, 2973, 2987, 3001, 3015, 3036, 3055, 3074, 3093, 3112, 3131, 3142,
  3159, 3159, 3159, 3165, 3180, 3193, 3227, 3288, 3330, 3366, 3385, 3404, 3423, 3442, 3462,
  3373, 3373, 3373, 3388, 3423, 3458, 3492, 3552, 3595, 3637, 3679, 3722, 3757, 3776, 3796,
  3720, 3720, 3720, 3735, 3770, 3805, 3839, 3857, 3900, 3942, 3984, 4027, 4069, 4113, 4156,
  4247, 4247, 4247, 4219, 4155, 4190, 4224, 4242, 4285, 4327, 4372, 4422, 4473, 4524, 4567,
  4927, 4927, 4927, 4899, 4836, 4772, 4708, 4644, 4694, 4744, 4795, 4846, 4896, 4947, 4998]

theorem bFit30_length : bFit30.length = 3375 := by decide +kernel

theorem bFit30_bounds : (bFit30.all fun x => Nat.ble 2001 x && Nat.ble x 16234) = true := by
  decide +kernel

/-- `a_fit`, `galacticus_truncation/johnsonSUparams_MW_rmax50kpc.py` 3-377. -/
def aFit50 : List Nat := [
  7854, 7854, 7854, 7854, 7855, 7856, 7857, 7858, 7768, 7679, 7589, 7500, 7410, 7321, 7239,
  7693, 7693, 7693, 7695, 7700, 7701, 7702, 7703, 7614, 7524, 7434, 7353, 7337, 7321, 7305,
  7531, 7531, 7531, 7532, 7536, 7539, 7542, 7548, 7467, 7451, 7435, 7418, 7402, 7386, 7370,
  7434, 7434, 7434, 7436, 7439, 7442, 7445, 7449, 7447, 7442, 7426, 7410, 7394, 7377, 7361,
  7414, 7414, 7414, 7405, 7386, 7367, 7370, 7374, 7372, 7370, 7368, 7366, 7361, 7345, 7329,
  7375, 7375, 7375, 7366, 7347, 7327, 7307, 7291, 7308, 7306, 7304, 7302, 7300, 7298, 7296,
  7309, 7309, 7309, 7289, 7242, 7222, 7203, 7186, 7203, 7221, 7238, 7256, 7254, 7252, 7250,
  7292, 7292, 7292, 7272, 7225, 7178, 7131, 7081, 7098, 7116, 7134, 7151, 7169, 7187, 7204,
  7309, 7309, 7309, 7289, 7239, 7296, 7353, 7409, 7275, 7141, 7008, 7025, 7042, 7060, 7078,
  7486, 7486, 7486, 7511, 7568, 7624, 7681, 7738, 7604, 7470, 7336, 7202, 7068, 6934, 6951,
  7588, 7588, 7588, 7613, 7669, 7726, 7783, 7840, 7792, 7747, 7613, 7479, 7345, 7211, 7077,
  7449, 7449, 7449, 7494, 7597, 7701, 7758, 7815, 7767, 7722, 7676, 7630, 7584, 7450, 7316,
  7256, 7256, 7256, 7301, 7405, 7509, 7613, 7712, 7702, 7658, 7612, 7567, 7521, 7475, 7429,
  7171, 7171, 7171, 7163, 7146, 7250, 7353, 7452, 7443, 7437, 7431, 7424, 7381, 7335, 7289,
  7278, 7278, 7278, 7270, 7253, 7235, 7218, 7201, 7195, 7189, 7182, 7176, 7170, 7164, 7156,
  4942, 4942, 4942, 4985, 5084, 5165, 5166, 5167, 5077, 4988, 5028, 5095, 5163, 5231, 5298,
  4607, 4607, 4607, 4592, 4691, 4790, 4888, 4987, 5055, 5122, 5190, 5258, 5325, 5309, 5293,
  4756, 4756, 4756, 4742, 4708, 4675, 4642, 4741, 4809, 4894, 4980, 5066, 5134, 5118, 5102,
  4741, 4741, 4741, 4733, 4736, 4739, 4674, 4745, 4691, 4637, 4723, 4809, 4877, 4861, 4845,
  4823, 4823, 4823, 4795, 4729, 4720, 4723, 4863, 4818, 4764, 4710, 4656, 4602, 4586, 4570,
  4765, 4765, 4765, 4766, 4769, 4772, 4775, 4813, 4820, 4766, 4712, 4658, 4613, 4611, 4609,
  4862, 4862, 4862, 4822, 4729, 4732, 4735, 4738, 4821, 4827, 4834, 4840, 4795, 4793, 4791,
  5152, 5152, 5152, 5111, 5018, 4925, 4832, 4739, 4745, 4752, 4758, 4765, 4773, 4791, 4808,
  5180, 5180, 5180, 5139, 5046, 4980, 5036, 5093, 4959, 4825, 4807, 4813, 4819, 4826, 4790,
  5580, 5580, 5580, 5547, 5468, 5401, 5458, 5515, 5381, 5247, 5229, 5193, 5147, 5102, 5057,
  5800, 5800, 5800, 5782, 5792, 5811, 5867, 5924, 5850, 5776, 5731, 5686, 5625, 5491, 5357,
  6147, 6147, 6147, 6152, 6162, 6188, 6245, 6302, 6228, 6154, 6080, 6006, 5937, 5803, 5669,
  6154, 6154, 6154, 6158, 6168, 6179, 6189, 6199, 6125, 6051, 5977, 5903, 5841, 5828, 5782,
  6202, 6202, 6202, 6194, 6177, 6187, 6197, 6207, 6133, 6059, 5985, 5979, 5973, 5930, 5878,
  6691, 6691, 6691, 6640, 6523, 6423, 6406, 6389, 6383, 6377, 6333, 6282, 6230, 6179, 6127,
  3500, 3500, 3500, 3543, 3641, 3740, 3839, 3916, 4012, 4079, 4147, 4215, 4283, 4350, 4418,
  3649, 3649, 3649, 3692, 3769, 3768, 3735, 3702, 3788, 3874, 3927, 4023, 4091, 4159, 4226,
  3603, 3603, 3603, 3589, 3555, 3522, 3489, 3456, 3542, 3628, 3714, 3800, 3885, 3939, 4035,
  3585, 3585, 3585, 3571, 3538, 3505, 3472, 3461, 3396, 3342, 3428, 3514, 3600, 3686, 3772,
  3649, 3649, 3649, 3651, 3654, 3634, 3601, 3590, 3526, 3472, 3418, 3364, 3310, 3396, 3482,
  3760, 3760, 3760, 3761, 3764, 3767, 3711, 3610, 3636, 3619, 3565, 3511, 3457, 3403, 3349,
  4032, 4032, 4032, 3992, 3899, 3806, 3713, 3611, 3637, 3644, 3650, 3656, 3640, 3586, 3532,
  4035, 4035, 4035, 3995, 3902, 3809, 3716, 3654, 3687, 3694, 3700, 3706, 3713, 3719, 3726,
  4405, 4405, 4405, 4364, 4303, 4227, 4151, 4076, 4030, 3985, 3940, 3974, 3980, 3987, 3993,
  4833, 4833, 4833, 4800, 4724, 4649, 4573, 4497, 4452, 4407, 4362, 4317, 4272, 4227, 4260,
  5089, 5089, 5089, 5056, 4980, 4905, 4862, 4872, 4803, 4729, 4726, 4681, 4636, 4591, 4546,
  5234, 5234, 5234, 5235, 5245, 5255, 5265, 5275, 5206, 5132, 5058, 4984, 4910, 4907, 4862,
  5686, 5686, 5686, 5691, 5701, 5711, 5721, 5604, 5579, 5505, 5431, 5357, 5283, 5209, 5188,
  6249, 6249, 6249, 6254, 6137, 6020, 5903, 5786, 5760, 5686, 5612, 5591, 5540, 5488, 5437,
  6455, 6455, 6455, 6404, 6287, 6170, 6053, 6015, 5995, 5943, 5892, 5840, 5789, 5737, 5686,
  3497, 3497, 3497, 3539, 3638, 3737, 3809, 3873, 3987, 4089, 4157, 4224, 4292, 4360, 4427,
  3635, 3635, 3635, 3663, 3726, 3746, 3752, 3719, 3805, 3851, 3885, 3998, 4100, 4168, 4236,
  3610, 3610, 3610, 3605, 3572, 3539, 3506, 3473, 3559, 3645, 3731, 3816, 3863, 3956, 3978,
  3562, 3562, 3562, 3548, 3515, 3482, 3475, 3477, 3407, 3340, 3426, 3512, 3598, 3684, 3769,
  3667, 3667, 3667, 3668, 3644, 3611, 3604, 3607, 3536, 3470, 3416, 3362, 3308, 3394, 3480,
  3778, 3778, 3778, 3779, 3782, 3713, 3610, 3504, 3542, 3572, 3563, 3509, 3455, 3401, 3347,
  3941, 3941, 3941, 3901, 3808, 3714, 3611, 3505, 3543, 3573, 3580, 3586, 3592, 3584, 3530,
  3947, 3947, 3947, 3906, 3813, 3720, 3665, 3623, 3673, 3713, 3719, 3725, 3732, 3738, 3745,
  4332, 4332, 4332, 4314, 4272, 4196, 4120, 4045, 3999, 3954, 3909, 3960, 3999, 4006, 4012,
  4766, 4766, 4766, 4734, 4658, 4582, 4507, 4431, 4386, 4341, 4296, 4251, 4205, 4211, 4262,
  5092, 5092, 5092, 5059, 4983, 4908, 4832, 4778, 4719, 4645, 4668, 4674, 4629, 4584, 4539,
  5237, 5237, 5237, 5204, 5150, 5161, 5171, 5181, 5122, 5048, 4974, 4900, 4826, 4849, 4855,
  5592, 5592, 5592, 5597, 5607, 5617, 5627, 5510, 5514, 5440, 5366, 5292, 5218, 5202, 5200,
  6155, 6155, 6155, 6159, 6042, 5925, 5808, 5691, 5754, 5680, 5606, 5605, 5591, 5539, 5488,
  6304, 6304, 6304, 6254, 6137, 6020, 5998, 6010, 6008, 5994, 5942, 5891, 5839, 5788, 5736,
  3493, 3493, 3493, 3536, 3635, 3703, 3767, 3830, 3944, 4058, 4166, 4234, 4301, 4369, 4437,
  3592, 3592, 3592, 3620, 3684, 3703, 3723, 3736, 3775, 3809, 3842, 3956, 4069, 4177, 4245,
  3554, 3554, 3554, 3576, 3589, 3556, 3523, 3490, 3576, 3661, 3747, 3787, 3891, 3897, 3888,
  3515, 3515, 3515, 3501, 3467, 3489, 3492, 3494, 3423, 3353, 3355, 3441, 3527, 3613, 3699,
  3668, 3668, 3668, 3654, 3621, 3619, 3621, 3528, 3553, 3482, 3414, 3360, 3306, 3392, 3477,
  3795, 3795, 3795, 3796, 3715, 3610, 3504, 3397, 3435, 3474, 3508, 3507, 3453, 3399, 3345,
  3850, 3850, 3850, 3809, 3716, 3612, 3505, 3399, 3437, 3475, 3509, 3516, 3522, 3528, 3528,
  3858, 3858, 3858, 3818, 3725, 3676, 3634, 3592, 3642, 3693, 3738, 3744, 3751, 3757, 3764,
  4301, 4301, 4301, 4283, 4241, 4165, 4089, 4014, 3968, 3923, 3878, 3929, 3979, 4025, 4031,
  4662, 4662, 4662, 4649, 4573, 4498, 4422, 4346, 4301, 4256, 4211, 4166, 4181, 4204, 4255,
  4972, 4972, 4972, 4939, 4863, 4787, 4712, 4691, 4634, 4560, 4583, 4607, 4622, 4577, 4532,
  5196, 5196, 5196, 5207, 5132, 5066, 5076, 5087, 5030, 4956, 4882, 4808, 4801, 4824, 4847,
  5510, 5510, 5510, 5502, 5512, 5523, 5533, 5416, 5420, 5346, 5272, 5198, 5191, 5194, 5192,
  6073, 6073, 6073, 6065, 5948, 5831, 5714, 5597, 5749, 5675, 5601, 5599, 5598, 5590, 5538,
  6154, 6154, 6154, 6103, 5986, 5982, 5993, 6004, 6003, 6001, 5993, 5942, 5890, 5839, 5787,
  3490, 3490, 3490, 3533, 3596, 3660, 3724, 3788, 3901, 4015, 4129, 4242, 4311, 4378, 4446,
  3549, 3549, 3549, 3577, 3641, 3661, 3680, 3699, 3733, 3766, 3800, 3914, 4027, 4141, 4254,
  3476, 3476, 3476, 3489, 3552, 3572, 3540, 3507, 3592, 3678, 3712, 3824, 3815, 3806, 3797,
  3461, 3461, 3461, 3447, 3477, 3506, 3509, 3511, 3440, 3370, 3361, 3352, 3437, 3522, 3608,
  3645, 3645, 3645, 3631, 3633, 3635, 3528, 3422, 3460, 3498, 3429, 3358, 3304, 3390, 3475,
  3757, 3757, 3757, 3717, 3610, 3504, 3397, 3291, 3329, 3367, 3405, 3444, 3450, 3397, 3343,
  3761, 3761, 3761, 3721, 3679, 3572, 3466, 3360, 3398, 3436, 3474, 3525, 3532, 3538, 3544,
  3769, 3769, 3769, 3730, 3687, 3645, 3603, 3561, 3611, 3662, 3712, 3763, 3770, 3776, 3783,
  4269, 4269, 4269, 4251, 4208, 4133, 4058, 3982, 3937, 3892, 3847, 3898, 3949, 3999, 4050,
  4507, 4507, 4507, 4501, 4488, 4413, 4337, 4261, 4216, 4171, 4127, 4150, 4174, 4197, 4248,
  4816, 4816, 4816, 4783, 4708, 4632, 4619, 4606, 4549, 4475, 4499, 4522, 4545, 4569, 4524,
  5041, 5041, 5041, 5069, 5133, 5059, 4983, 4992, 4935, 4861, 4788, 4790, 4793, 4816, 4840,
  5458, 5458, 5458, 5446, 5419, 5428, 5438, 5321, 5326, 5252, 5179, 5181, 5184, 5186, 5184,
  5933, 5933, 5933, 5920, 5803, 5686, 5571, 5582, 5743, 5669, 5595, 5594, 5592, 5590, 5589,
  6003, 6003, 6003, 5954, 5965, 5976, 5988, 5999, 5997, 5996, 5994, 5992, 5941, 5890, 5838,
  3462, 3462, 3462, 3490, 3554, 3618, 3681, 3745, 3859, 3972, 4086, 4200, 4313, 4388, 4455,
  3456, 3456, 3456, 3484, 3548, 3612, 3637, 3657, 3690, 3735, 3848, 3962, 4076, 4172, 4163,
  3422, 3422, 3422, 3435, 3464, 3523, 3549, 3523, 3602, 3646, 3743, 3734, 3725, 3716, 3707,
  3451, 3451, 3451, 3464, 3493, 3523, 3525, 3512, 3457, 3386, 3377, 3369, 3360, 3432, 3518,
  3647, 3647, 3647, 3648, 3635, 3528, 3422, 3315, 3354, 3392, 3430, 3375, 3304, 3376, 3462,
  3656, 3656, 3656, 3610, 3504, 3397, 3291, 3185, 3223, 3261, 3299, 3337, 3375, 3386, 3341,
  3708, 3708, 3708, 3690, 3648, 3541, 3435, 3329, 3367, 3405, 3443, 3494, 3544, 3557, 3563,
  3717, 3717, 3717, 3699, 3656, 3614, 3572, 3530, 3580, 3631, 3681, 3732, 3783, 3795, 3802,
  4113, 4113, 4113, 4095, 4053, 4040, 3973, 3897, 3852, 3817, 3840, 3891, 3941, 3992, 4043,
  4351, 4351, 4351, 4345, 4332, 4319, 4252, 4177, 4132, 4096, 4120, 4143, 4166, 4190, 4240,
  4660, 4660, 4660, 4628, 4561, 4548, 4535, 4522, 4463, 4400, 4424, 4447, 4470, 4494, 4517,
  4938, 4938, 4938, 4926, 4977, 5042, 4966, 4899, 4841, 4778, 4780, 4783, 4785, 4808, 4832,
  5407, 5407, 5407, 5395, 5367, 5339, 5344, 5227, 5232, 5168, 5171, 5173, 5176, 5178, 5177,
  5782, 5782, 5782, 5770, 5653, 5554, 5565, 5577, 5648, 5585, 5588, 5586, 5584, 5583, 5581,
  5943, 5943, 5943, 5948, 5959, 5971, 5982, 5993, 5992, 5990, 5988, 5987, 5985, 5941, 5889,
  3420, 3420, 3420, 3447, 3511, 3575, 3639, 3702, 3816, 3930, 4043, 4157, 4271, 4384, 4465,
  3364, 3364, 3364, 3391, 3455, 3519, 3583, 3614, 3669, 3783, 3897, 4010, 4091, 4082, 4073,
  3368, 3368, 3368, 3381, 3410, 3440, 3494, 3526, 3581, 3661, 3652, 3643, 3634, 3625, 3616,
  3468, 3468, 3468, 3481, 3510, 3540, 3512, 3406, 3444, 3403, 3394, 3385, 3376, 3367, 3427,
  3663, 3663, 3663, 3635, 3528, 3422, 3315, 3209, 3247, 3285, 3324, 3362, 3321, 3312, 3372,
  3568, 3568, 3568, 3522, 3416, 3309, 3203, 3096, 3135, 3173, 3211, 3249, 3287, 3325, 3344,
  3677, 3677, 3677, 3659, 3617, 3510, 3404, 3298, 3336, 3374, 3412, 3463, 3513, 3564, 3582,
  3686, 3686, 3686, 3668, 3625, 3583, 3541, 3499, 3549, 3600, 3650, 3701, 3752, 3802, 3821,
  3958, 3958, 3958, 3939, 3897, 3884, 3871, 3813, 3786, 3810, 3833, 3883, 3934, 3985, 4035,
  4195, 4195, 4195, 4190, 4177, 4164, 4151, 4092, 4066, 4089, 4112, 4136, 4159, 4182, 4233,
  4505, 4505, 4505, 4489, 4476, 4463, 4450, 4437, 4390, 4392, 4416, 4439, 4462, 4486, 4509,
  4887, 4887, 4887, 4875, 4847, 4886, 4828, 4815, 4768, 4770, 4772, 4775, 4777, 4801, 4824,
  5332, 5332, 5332, 5320, 5292, 5264, 5236, 5154, 5158, 5161, 5163, 5166, 5168, 5170, 5169,
  5631, 5631, 5631, 5619, 5537, 5548, 5560, 5571, 5575, 5577, 5580, 5578, 5577, 5575, 5573,
  5938, 5938, 5938, 5943, 5954, 5965, 5977, 5988, 5986, 5985, 5983, 5981, 5980, 5978, 5940,
  3546, 3546, 3546, 3573, 3637, 3701, 3765, 3756, 3675, 3789, 3903, 4016, 4130, 4244, 4357,
  3341, 3341, 3341, 3354, 3418, 3482, 3545, 3609, 3723, 3836, 3950, 4064, 4055, 4046, 3901,
  3356, 3356, 3356, 3368, 3398, 3427, 3457, 3521, 3634, 3625, 3617, 3608, 3599, 3590, 3445,
  3522, 3522, 3522, 3535, 3564, 3573, 3495, 3360, 3351, 3342, 3333, 3324, 3355, 3393, 3375,
  3654, 3654, 3654, 3618, 3511, 3405, 3298, 3163, 3154, 3185, 3223, 3262, 3300, 3338, 3319,
  3600, 3600, 3600, 3553, 3447, 3341, 3234, 3128, 3166, 3204, 3242, 3280, 3319, 3324, 3340,
  3645, 3645, 3645, 3627, 3615, 3542, 3435, 3329, 3367, 3405, 3410, 3427, 3478, 3528, 3579,
  3653, 3653, 3653, 3635, 3593, 3551, 3508, 3497, 3514, 3564, 3615, 3665, 3716, 3767, 3817,
  3859, 3859, 3859, 3841, 3799, 3761, 3748, 3735, 3758, 3781, 3828, 3878, 3929, 3980, 4015,
  4072, 4072, 4072, 4066, 4053, 4040, 4027, 4014, 4038, 4061, 4084, 4108, 4131, 4177, 4213,
  4447, 4447, 4447, 4441, 4428, 4415, 4387, 4359, 4362, 4364, 4387, 4411, 4434, 4457, 4459,
  4860, 4860, 4860, 4848, 4820, 4792, 4765, 4737, 4739, 4742, 4744, 4747, 4749, 4772, 4774,
  5145, 5145, 5145, 5133, 5105, 5077, 5049, 5065, 5017, 5020, 5022, 5024, 5027, 5029, 5032,
  5444, 5444, 5444, 5432, 5448, 5459, 5471, 5482, 5480, 5479, 5477, 5429, 5431, 5434, 5436,
  5849, 5849, 5849, 5853, 5865, 5876, 5887, 5899, 5897, 5895, 5894, 5892, 5891, 5889, 5841,
  3974, 3974, 3974, 4001, 4047, 4025, 4004, 3982, 3866, 3751, 3635, 3700, 3814, 3928, 4041,
  3447, 3447, 3447, 3449, 3513, 3577, 3641, 3686, 3751, 3865, 3978, 4092, 3923, 3754, 3585,
  3434, 3434, 3434, 3436, 3460, 3490, 3519, 3583, 3697, 3688, 3679, 3636, 3495, 3457, 3419,
  3623, 3623, 3623, 3625, 3630, 3635, 3563, 3423, 3414, 3415, 3453, 3477, 3448, 3417, 3379,
  3667, 3667, 3667, 3669, 3613, 3541, 3441, 3267, 3251, 3278, 3316, 3354, 3392, 3364, 3335,
  3639, 3639, 3639, 3636, 3582, 3484, 3377, 3271, 3309, 3347, 3377, 3379, 3384, 3368, 3352,
  3674, 3674, 3674, 3672, 3666, 3598, 3531, 3464, 3463, 3462, 3461, 3472, 3482, 3493, 3535,
  3618, 3618, 3618, 3600, 3566, 3560, 3554, 3548, 3558, 3569, 3579, 3622, 3672, 3723, 3773,
  3852, 3852, 3852, 3841, 3799, 3757, 3714, 3680, 3722, 3772, 3823, 3874, 3906, 3939, 3971,
  4044, 4044, 4044, 4033, 3994, 3975, 3962, 3949, 3972, 3995, 4025, 4071, 4098, 4103, 4108,
  4350, 4350, 4350, 4365, 4362, 4349, 4322, 4294, 4296, 4299, 4322, 4340, 4338, 4338, 4343,
  4735, 4735, 4735, 4722, 4693, 4666, 4638, 4610, 4612, 4615, 4617, 4625, 4653, 4651, 4649,
  4961, 4961, 4961, 4949, 4921, 4890, 4860, 4877, 4820, 4848, 4876, 4884, 4886, 4888, 4891,
  5193, 5193, 5193, 5181, 5197, 5214, 5231, 5243, 5230, 5173, 5117, 5060, 5062, 5065, 5067,
  5606, 5606, 5606, 5613, 5626, 5637, 5649, 5660, 5658, 5657, 5655, 5642, 5585, 5528, 5472,
  4304, 4304, 4304, 4295, 4273, 4251, 4230, 4208, 4092, 3977, 3861, 3746, 3630, 3611, 3725,
  3875, 3875, 3875, 3878, 3941, 3956, 3934, 3912, 3797, 3681, 3662, 3776, 3607, 3514, 3476,
  3555, 3555, 3555, 3557, 3562, 3567, 3582, 3646, 3759, 3658, 3565, 3527, 3489, 3451, 3412,
  3641, 3641, 3641, 3643, 3648, 3653, 3625, 3505, 3512, 3550, 3521, 3487, 3449, 3411, 3373,
  3579, 3579, 3579, 3567, 3553, 3558, 3531, 3410, 3394, 3378, 3363, 3370, 3408, 3379, 3345,
  3588, 3588, 3588, 3576, 3548, 3529, 3498, 3414, 3429, 3435, 3430, 3415, 3399, 3383, 3367,
  3628, 3628, 3628, 3625, 3619, 3614, 3582, 3514, 3514, 3519, 3530, 3540, 3551, 3546, 3531,
  3625, 3625, 3625, 3622, 3616, 3610, 3604, 3598, 3609, 3620, 3630, 3641, 3651, 3679, 3729,
  3817, 3817, 3817, 3806, 3764, 3742, 3737, 3731, 3741, 3752, 3779, 3830, 3862, 3879, 3884,
  3989, 3989, 3989, 3982, 3966, 3946, 3913, 3883, 3922, 3963, 3979, 3984, 3989, 3994, 3999,
  4222, 4222, 4222, 4216, 4221, 4256, 4227, 4199, 4201, 4219, 4217, 4219, 4224, 4229, 4234,
  4556, 4556, 4556, 4543, 4512, 4482, 4452, 4425, 4427, 4444, 4472, 4500, 4528, 4526, 4528,
  4779, 4779, 4779, 4766, 4736, 4705, 4675, 4691, 4635, 4663, 4690, 4718, 4746, 4763, 4766,
  4986, 4986, 4986, 4973, 4990, 5007, 5023, 5040, 4983, 4927, 4870, 4814, 4842, 4859, 4861,
  5355, 5355, 5355, 5362, 5379, 5395, 5410, 5421, 5419, 5386, 5329, 5273, 5216, 5159, 5103,
  4517, 4517, 4517, 4507, 4486, 4464, 4442, 4421, 4305, 4190, 4074, 3959, 3843, 3749, 3714,
  4259, 4259, 4259, 4250, 4228, 4206, 4204, 4209, 4171, 4113, 3997, 3882, 3766, 3669, 3622,
  3892, 3892, 3892, 3894, 3899, 3904, 3909, 3914, 3876, 3838, 3800, 3762, 3703, 3606, 3559,
  3753, 3753, 3753, 3741, 3737, 3742, 3747, 3752, 3714, 3676, 3638, 3606, 3590, 3566, 3519,
  3756, 3756, 3756, 3744, 3716, 3688, 3661, 3657, 3625, 3609, 3593, 3578, 3562, 3538, 3491,
  3624, 3624, 3624, 3612, 3585, 3557, 3529, 3523, 3534, 3518, 3503, 3487, 3471, 3435, 3360,
  3643, 3643, 3643, 3631, 3625, 3619, 3614, 3608, 3618, 3629, 3639, 3650, 3634, 3598, 3506,
  3652, 3652, 3652, 3649, 3643, 3638, 3632, 3626, 3636, 3647, 3657, 3668, 3679, 3683, 3670,
  3807, 3807, 3807, 3839, 3788, 3770, 3764, 3758, 3710, 3711, 3716, 3726, 3737, 3748, 3758,
  3893, 3893, 3893, 3886, 3870, 3879, 3934, 3882, 3842, 3843, 3848, 3853, 3858, 3863, 3874,
  4051, 4051, 4051, 4044, 4029, 4013, 3997, 3981, 3986, 3991, 3997, 4002, 4007, 4031, 4047,
  4313, 4313, 4313, 4300, 4269, 4238, 4223, 4207, 4212, 4217, 4245, 4273, 4301, 4325, 4341,
  4562, 4562, 4562, 4549, 4518, 4488, 4457, 4474, 4417, 4445, 4473, 4501, 4529, 4569, 4629,
  4769, 4769, 4769, 4756, 4772, 4789, 4806, 4823, 4766, 4709, 4653, 4596, 4624, 4664, 4740,
  5059, 5059, 5059, 5066, 5083, 5100, 5116, 5133, 5154, 5118, 5062, 5005, 4948, 4892, 4835,
  4713, 4713, 4713, 4703, 4679, 4656, 4635, 4613, 4498, 4382, 4301, 4266, 4232, 4197, 4162,
  4577, 4577, 4577, 4608, 4584, 4561, 4540, 4518, 4402, 4287, 4206, 4171, 4124, 4077, 4030,
  4259, 4259, 4259, 4260, 4302, 4319, 4312, 4317, 4279, 4208, 4122, 4075, 4028, 3981, 3935,
  4088, 4088, 4088, 4116, 4181, 4192, 4165, 4156, 4127, 4111, 4082, 4035, 3989, 3942, 3895,
  4038, 4038, 4038, 4026, 3999, 3963, 3918, 3872, 3841, 3811, 3789, 3773, 3758, 3711, 3664,
  3815, 3815, 3815, 3795, 3750, 3714, 3687, 3681, 3691, 3675, 3627, 3562, 3531, 3501, 3470,
  3799, 3799, 3799, 3779, 3727, 3702, 3696, 3690, 3701, 3711, 3712, 3699, 3607, 3515, 3449,
  3729, 3729, 3729, 3706, 3655, 3629, 3623, 3618, 3628, 3639, 3639, 3626, 3613, 3599, 3586,
  3943, 3943, 3943, 3944, 3892, 3841, 3789, 3665, 3653, 3641, 3629, 3640, 3650, 3651, 3638,
  3832, 3832, 3832, 3833, 3834, 3836, 3837, 3785, 3745, 3733, 3721, 3709, 3707, 3712, 3723,
  3883, 3883, 3883, 3884, 3885, 3876, 3861, 3845, 3850, 3855, 3853, 3841, 3829, 3845, 3860,
  4115, 4115, 4115, 4086, 4019, 3973, 3957, 3941, 3946, 3951, 3974, 3990, 4006, 4021, 4037,
  4225, 4225, 4225, 4225, 4234, 4222, 4191, 4208, 4151, 4179, 4227, 4277, 4293, 4309, 4325,
  4421, 4421, 4421, 4427, 4458, 4480, 4497, 4513, 4535, 4511, 4455, 4398, 4473, 4549, 4599,
  4672, 4672, 4672, 4685, 4715, 4738, 4755, 4771, 4793, 4814, 4835, 4856, 4833, 4776, 4720,
  5170, 5170, 5170, 5159, 5135, 5112, 5084, 4983, 4922, 4886, 4851, 4817, 4782, 4747, 4712,
  4824, 4824, 4824, 4814, 4790, 4766, 4768, 4771, 4724, 4678, 4643, 4608, 4574, 4543, 4581,
  4662, 4662, 4662, 4663, 4666, 4669, 4673, 4676, 4629, 4582, 4535, 4488, 4442, 4411, 4444,
  4435, 4435, 4435, 4415, 4415, 4418, 4422, 4425, 4378, 4331, 4284, 4238, 4208, 4176, 4126,
  4253, 4253, 4253, 4233, 4187, 4141, 4096, 4096, 4050, 4020, 3989, 3959, 3929, 3897, 3847,
  4073, 4073, 4073, 4053, 4007, 3961, 3916, 3899, 3868, 3838, 3807, 3777, 3748, 3730, 3649,
  4008, 4008, 4008, 3986, 3935, 3889, 3843, 3826, 3796, 3766, 3753, 3739, 3726, 3709, 3624,
  3953, 3953, 3953, 3930, 3879, 3827, 3776, 3732, 3684, 3669, 3655, 3642, 3629, 3615, 3602,
  3910, 3910, 3910, 3887, 3836, 3784, 3738, 3779, 3767, 3756, 3744, 3696, 3680, 3667, 3654,
  3832, 3832, 3832, 3832, 3834, 3832, 3785, 3823, 3811, 3799, 3787, 3775, 3763, 3751, 3703,
  3768, 3768, 3768, 3769, 3770, 3771, 3772, 3803, 3790, 3778, 3766, 3754, 3742, 3758, 3774,
  3833, 3833, 3833, 3834, 3835, 3837, 3838, 3869, 3856, 3844, 3859, 3875, 3891, 3907, 3923,
  3963, 3963, 3963, 3964, 3965, 3967, 3967, 3868, 3907, 3925, 3940, 3956, 3972, 3988, 4004,
  4179, 4179, 4179, 4193, 4223, 4224, 4225, 4121, 4142, 4163, 4186, 4228, 4243, 4259, 4275,
  4295, 4295, 4295, 4308, 4339, 4369, 4397, 4379, 4400, 4421, 4442, 4464, 4485, 4507, 4549,
  6573, 6573, 6573, 6530, 6429, 6328, 6228, 6127, 6067, 6006, 5945, 5885, 5824, 5763, 5710,
  6104, 6104, 6104, 6082, 6002, 5902, 5801, 5700, 5640, 5579, 5519, 5465, 5439, 5389, 5339,
  5527, 5527, 5527, 5505, 5454, 5404, 5353, 5274, 5220, 5194, 5144, 5094, 5043, 4993, 4943,
  5186, 5186, 5186, 5164, 5113, 5062, 5044, 5018, 5012, 5000, 4950, 4899, 4849, 4799, 4748,
  4909, 4909, 4909, 4901, 4883, 4864, 4846, 4820, 4814, 4809, 4803, 4797, 4785, 4735, 4684,
  4725, 4725, 4725, 4717, 4699, 4680, 4661, 4649, 4610, 4582, 4577, 4571, 4566, 4560, 4555,
  4635, 4635, 4635, 4615, 4571, 4547, 4528, 4515, 4467, 4419, 4371, 4333, 4305, 4299, 4294,
  4579, 4579, 4579, 4560, 4515, 4471, 4426, 4382, 4334, 4286, 4238, 4190, 4141, 4093, 4055,
  4369, 4369, 4369, 4349, 4305, 4289, 4252, 4214, 4201, 4188, 4174, 4126, 4078, 4030, 3982,
  4191, 4191, 4191, 4175, 4137, 4100, 4062, 4025, 4012, 3998, 3985, 3971, 3958, 3944, 3896,
  4027, 4027, 4027, 4011, 3974, 3947, 3936, 3936, 3937, 3934, 3920, 3907, 3893, 3880, 3874,
  3918, 3918, 3918, 3914, 3903, 3892, 3881, 3881, 3882, 3883, 3883, 3884, 3881, 3867, 3862,
  3915, 3915, 3915, 3910, 3899, 3888, 3878, 3842, 3843, 3843, 3844, 3845, 3845, 3857, 3892,
  3917, 3917, 3917, 3910, 3892, 3881, 3870, 3835, 3835, 3836, 3848, 3890, 3931, 3973, 4008,
  3931, 3931, 3931, 3923, 3905, 3887, 3870, 3852, 3888, 3930, 3971, 4013, 4055, 4096, 4138]

theorem aFit50_length : aFit50.length = 3375 := by decide +kernel

theorem aFit50_bounds : (aFit50.all fun x => Nat.ble 3096 x && Nat.ble x 7858) = true := by
  decide +kernel

/-- `b_fit`, `galacticus_truncation/johnsonSUparams_MW_rmax50kpc.py` 378-799. -/
def bFit50 : List Nat := [
  16200, 16200, 16200, 16186, 16156, 16126, 16095, 16065, 15912, 15758, 15604, 15451, 15297, 15143, 14999,
  15927, 15927, 15927, 15932, 15904, 15874, 15844, 15813, 15660, 15506, 15352, 15208, 15174, 15139, 15105,
  15554, 15554, 15554, 15559, 15569, 15579, 15589, 15561, 15417, 15383, 15348, 15314, 15280, 15246, 15212,
  15321, 15321, 15321, 15326, 15336, 15346, 15356, 15363, 15368, 15369, 15335, 15301, 15267, 15233, 15199,
  15291, 15291, 15291, 15265, 15206, 15151, 15161, 15168, 15173, 15178, 15183, 15188, 15190, 15156, 15122,
  15243, 15243, 15243, 15217, 15158, 15099, 15041, 14991, 15013, 15019, 15024, 15029, 15034, 15039, 15044,
  15112, 15112, 15112, 15075, 14991, 14932, 14873, 14823, 14846, 14871, 14897, 14922, 14927, 14933, 14938,
  15036, 15036, 15036, 15000, 14915, 14830, 14745, 14656, 14678, 14703, 14729, 14755, 14780, 14806, 14831,
  15112, 15112, 15112, 15075, 14985, 15096, 15206, 15316, 15068, 14821, 14573, 14595, 14620, 14646, 14671,
  15488, 15488, 15488, 15536, 15646, 15757, 15867, 15977, 15729, 15481, 15233, 14985, 14737, 14489, 14512,
  15735, 15735, 15735, 15783, 15893, 16003, 16114, 16224, 16090, 15957, 15709, 15461, 15213, 14965, 14717,
  15456, 15456, 15456, 15555, 15783, 16011, 16122, 16232, 16098, 15965, 15832, 15699, 15566, 15318, 15070,
  15038, 15038, 15038, 15137, 15365, 15594, 15822, 16036, 16008, 15881, 15748, 15615, 15482, 15349, 15216,
  14831, 14831, 14831, 14810, 14762, 14991, 15219, 15434, 15406, 15385, 15364, 15343, 15216, 15083, 14950,
  15065, 15065, 15065, 15044, 14996, 14948, 14900, 14852, 14831, 14810, 14790, 14769, 14748, 14727, 14701,
  6947, 6947, 6947, 6959, 6986, 7003, 6973, 6942, 6789, 6635, 6621, 6636, 6652, 6667, 6683,
  6689, 6689, 6689, 6660, 6688, 6715, 6742, 6770, 6785, 6801, 6816, 6832, 6857, 6823, 6789,
  7006, 7006, 7006, 6977, 6911, 6845, 6779, 6806, 6821, 6860, 6899, 6937, 6963, 6929, 6895,
  7181, 7181, 7181, 7166, 7176, 7186, 6937, 7092, 7023, 6954, 6993, 7031, 7057, 7023, 6989,
  7598, 7598, 7598, 7490, 7241, 7158, 7110, 7467, 7411, 7342, 7273, 7204, 7136, 7101, 7067,
  7490, 7490, 7490, 7470, 7423, 7375, 7328, 7457, 7415, 7346, 7277, 7208, 7153, 7158, 7163,
  7827, 7827, 7827, 7751, 7576, 7529, 7481, 7434, 7775, 7733, 7691, 7649, 7594, 7599, 7604,
  8572, 8572, 8572, 8496, 8320, 8145, 7970, 7794, 7752, 7710, 7669, 7627, 7596, 7622, 7648,
  8684, 8684, 8684, 8608, 8433, 8308, 8418, 8529, 8281, 8033, 7954, 7912, 7870, 7828, 7731,
  9619, 9619, 9619, 9541, 9361, 9236, 9346, 9457, 9209, 8961, 8882, 8785, 8676, 8567, 8458,
  10296, 10296, 10296, 10242, 10201, 10187, 10297, 10408, 10250, 10092, 9983, 9874, 9740, 9492, 9244,
  11145, 11145, 11145, 11127, 11086, 11093, 11203, 11314, 11156, 10998, 10840, 10683, 10529, 10281, 10033,
  11300, 11300, 11300, 11282, 11241, 11200, 11159, 11118, 10960, 10802, 10645, 10487, 10354, 10313, 10180,
  11451, 11451, 11451, 11430, 11382, 11341, 11300, 11259, 11101, 10944, 10786, 10765, 10744, 10641, 10520,
  12600, 12600, 12600, 12482, 12209, 11976, 11928, 11880, 11859, 11839, 11735, 11614, 11493, 11372, 11250,
  2607, 2607, 2607, 2618, 2646, 2673, 2700, 2734, 2770, 2786, 2802, 2817, 2833, 2848, 2864,
  2923, 2923, 2923, 2935, 2969, 2937, 2871, 2805, 2843, 2882, 2886, 2923, 2938, 2954, 2969,
  3134, 3134, 3134, 3106, 3040, 2973, 2907, 2841, 2880, 2918, 2957, 2995, 3034, 3038, 3075,
  3387, 3387, 3387, 3358, 3292, 3226, 3159, 3127, 3061, 2993, 3031, 3070, 3108, 3147, 3185,
  3763, 3763, 3763, 3742, 3695, 3636, 3570, 3538, 3472, 3403, 3334, 3265, 3197, 3235, 3274,
  4247, 4247, 4247, 4226, 4179, 4132, 4006, 3870, 3876, 3824, 3755, 3686, 3617, 3549, 3480,
  4968, 4968, 4968, 4892, 4717, 4542, 4366, 4230, 4237, 4195, 4153, 4111, 4058, 3990, 3921,
  5342, 5342, 5342, 5266, 5091, 4916, 4740, 4631, 4637, 4595, 4553, 4511, 4469, 4427, 4385,
  6287, 6287, 6287, 6211, 6102, 5921, 5740, 5560, 5450, 5341, 5232, 5238, 5196, 5154, 5112,
  7289, 7289, 7289, 7211, 7030, 6849, 6669, 6488, 6379, 6269, 6160, 6051, 5942, 5833, 5838,
  7987, 7987, 7987, 7908, 7728, 7547, 7420, 7379, 7238, 7080, 7032, 6923, 6814, 6705, 6595,
  8530, 8530, 8530, 8505, 8464, 8423, 8382, 8341, 8200, 8042, 7884, 7727, 7569, 7521, 7412,
  9603, 9603, 9603, 9585, 9544, 9503, 9462, 9189, 9101, 8943, 8785, 8628, 8470, 8312, 8299,
  10920, 10920, 10920, 10902, 10629, 10356, 10083, 9811, 9722, 9564, 9407, 9393, 9272, 9151, 9029,
  11544, 11544, 11544, 11426, 11153, 10880, 10607, 10501, 10487, 10366, 10245, 10124, 10003, 9881, 9760,
  2510, 2510, 2510, 2521, 2549, 2576, 2611, 2649, 2699, 2739, 2755, 2771, 2786, 2802, 2817,
  2830, 2830, 2830, 2846, 2884, 2873, 2849, 2782, 2821, 2818, 2802, 2851, 2892, 2907, 2923,
  3102, 3102, 3102, 3084, 3017, 2951, 2885, 2819, 2857, 2896, 2935, 2973, 2970, 3003, 3015,
  3302, 3302, 3302, 3274, 3207, 3141, 3116, 3105, 3041, 2976, 3015, 3054, 3092, 3131, 3169,
  3700, 3700, 3700, 3679, 3618, 3552, 3527, 3515, 3452, 3387, 3318, 3249, 3181, 3219, 3258,
  4184, 4184, 4184, 4164, 4116, 3973, 3846, 3734, 3771, 3788, 3739, 3670, 3601, 3532, 3464,
  4760, 4760, 4760, 4684, 4509, 4334, 4206, 4094, 4131, 4148, 4106, 4064, 4022, 3973, 3905,
  5160, 5160, 5160, 5084, 4909, 4733, 4639, 4571, 4606, 4622, 4580, 4538, 4496, 4454, 4412,
  6139, 6139, 6139, 6109, 6042, 5861, 5680, 5499, 5390, 5281, 5172, 5207, 5223, 5181, 5139,
  7177, 7177, 7177, 7098, 6917, 6737, 6556, 6375, 6266, 6157, 6047, 5938, 5829, 5794, 5830,
  7974, 7974, 7974, 7896, 7715, 7534, 7354, 7208, 7098, 6940, 6931, 6896, 6787, 6678, 6568,
  8517, 8517, 8517, 8439, 8293, 8252, 8211, 8170, 8060, 7902, 7745, 7587, 7429, 7420, 7385,
  9433, 9433, 9433, 9415, 9374, 9333, 9292, 9019, 8973, 8816, 8658, 8500, 8343, 8293, 8347,
  10749, 10749, 10749, 10732, 10459, 10186, 9913, 9640, 9679, 9521, 9363, 9417, 9427, 9305, 9184,
  11193, 11193, 11193, 11075, 10802, 10529, 10459, 10457, 10511, 10521, 10400, 10279, 10157, 10036, 9915,
  2413, 2413, 2413, 2424, 2452, 2489, 2527, 2565, 2614, 2663, 2708, 2724, 2740, 2755, 2771,
  2745, 2745, 2745, 2762, 2800, 2789, 2778, 2760, 2750, 2734, 2717, 2766, 2815, 2861, 2876,
  3002, 3002, 3002, 3013, 2995, 2929, 2863, 2797, 2835, 2874, 2912, 2902, 2944, 2949, 2948,
  3189, 3189, 3189, 3160, 3094, 3105, 3094, 3083, 3019, 2956, 2960, 2998, 3037, 3075, 3114,
  3629, 3629, 3629, 3600, 3534, 3516, 3505, 3405, 3430, 3366, 3302, 3233, 3164, 3203, 3242,
  4121, 4121, 4121, 4101, 3941, 3822, 3710, 3598, 3635, 3672, 3699, 3654, 3585, 3516, 3447,
  4553, 4553, 4553, 4477, 4301, 4182, 4070, 3958, 3995, 4032, 4060, 4018, 3976, 3934, 3888,
  4978, 4978, 4978, 4902, 4726, 4646, 4578, 4511, 4546, 4581, 4607, 4565, 4523, 4481, 4439,
  6078, 6078, 6078, 6049, 5981, 5801, 5620, 5439, 5330, 5221, 5111, 5147, 5182, 5208, 5166,
  6985, 6985, 6985, 6958, 6778, 6597, 6416, 6235, 6126, 6017, 5908, 5798, 5777, 5767, 5803,
  7716, 7716, 7716, 7638, 7457, 7276, 7096, 7061, 6958, 6800, 6791, 6781, 6760, 6651, 6542,
  8418, 8418, 8418, 8427, 8246, 8082, 8041, 8000, 7896, 7739, 7581, 7423, 7393, 7384, 7374,
  9267, 9267, 9267, 9244, 9203, 9162, 9121, 8848, 8803, 8645, 8487, 8330, 8300, 8287, 8341,
  10583, 10583, 10583, 10561, 10288, 10015, 9742, 9469, 9635, 9477, 9320, 9374, 9428, 9460, 9339,
  10843, 10843, 10843, 10725, 10452, 10417, 10416, 10414, 10468, 10522, 10555, 10434, 10312, 10191, 10070,
  2316, 2316, 2316, 2328, 2366, 2404, 2442, 2480, 2529, 2579, 2628, 2677, 2693, 2709, 2724,
  2660, 2660, 2660, 2676, 2715, 2704, 2693, 2682, 2666, 2649, 2633, 2682, 2731, 2781, 2829,
  2869, 2869, 2869, 2879, 2917, 2906, 2841, 2774, 2813, 2851, 2835, 2884, 2883, 2883, 2882,
  3067, 3067, 3067, 3039, 3061, 3083, 3072, 3060, 2997, 2933, 2933, 2932, 2970, 3009, 3047,
  3544, 3544, 3544, 3516, 3505, 3493, 3381, 3269, 3306, 3343, 3281, 3217, 3148, 3187, 3225,
  3984, 3984, 3984, 3909, 3797, 3686, 3574, 3462, 3499, 3536, 3573, 3610, 3569, 3500, 3431,
  4368, 4368, 4368, 4293, 4225, 4113, 4002, 3890, 3927, 3964, 4001, 4036, 3995, 3953, 3911,
  4795, 4795, 4795, 4721, 4653, 4585, 4518, 4450, 4486, 4521, 4556, 4591, 4550, 4508, 4466,
  6015, 6015, 6015, 5986, 5919, 5739, 5559, 5378, 5269, 5159, 5051, 5087, 5122, 5157, 5192,
  6656, 6656, 6656, 6650, 6636, 6457, 6276, 6095, 5986, 5877, 5769, 5759, 5750, 5741, 5776,
  7388, 7388, 7388, 7309, 7129, 6950, 6936, 6922, 6818, 6661, 6651, 6642, 6632, 6623, 6515,
  8089, 8089, 8089, 8132, 8230, 8052, 7872, 7829, 7726, 7568, 7412, 7399, 7387, 7377, 7368,
  9113, 9113, 9113, 9089, 9033, 8992, 8951, 8678, 8632, 8475, 8318, 8306, 8293, 8281, 8335,
  10254, 10254, 10254, 10230, 9957, 9684, 9414, 9412, 9591, 9433, 9277, 9331, 9385, 9439, 9492,
  10493, 10493, 10493, 10377, 10375, 10374, 10372, 10371, 10425, 10479, 10533, 10587, 10467, 10346, 10225,
  2226, 2226, 2226, 2243, 2281, 2319, 2357, 2395, 2445, 2494, 2543, 2592, 2642, 2662, 2678,
  2520, 2520, 2520, 2536, 2574, 2612, 2608, 2598, 2581, 2574, 2623, 2672, 2721, 2764, 2763,
  2747, 2747, 2747, 2757, 2779, 2815, 2811, 2752, 2783, 2776, 2818, 2817, 2817, 2816, 2815,
  3007, 3007, 3007, 3017, 3039, 3061, 3050, 3024, 2975, 2911, 2911, 2910, 2909, 2942, 2981,
  3499, 3499, 3499, 3494, 3469, 3357, 3245, 3133, 3170, 3207, 3244, 3195, 3131, 3164, 3203,
  3822, 3822, 3822, 3773, 3662, 3550, 3438, 3326, 3363, 3400, 3437, 3474, 3511, 3480, 3415,
  4262, 4262, 4262, 4232, 4165, 4053, 3941, 3830, 3867, 3903, 3940, 3976, 4011, 3980, 3938,
  4689, 4689, 4689, 4660, 4593, 4525, 4458, 4390, 4425, 4461, 4496, 4531, 4566, 4535, 4493,
  5687, 5687, 5687, 5657, 5590, 5576, 5419, 5238, 5129, 5034, 5024, 5060, 5095, 5130, 5165,
  6328, 6328, 6328, 6322, 6308, 6294, 6136, 5956, 5846, 5751, 5742, 5733, 5723, 5714, 5749,
  7059, 7059, 7059, 6981, 6824, 6810, 6796, 6782, 6675, 6538, 6528, 6519, 6509, 6500, 6490,
  7849, 7849, 7849, 7825, 7902, 8000, 7820, 7662, 7555, 7418, 7406, 7393, 7381, 7371, 7362,
  8959, 8959, 8959, 8935, 8879, 8823, 8780, 8507, 8462, 8325, 8312, 8300, 8287, 8274, 8328,
  9904, 9904, 9904, 9879, 9607, 9372, 9371, 9369, 9420, 9283, 9270, 9324, 9378, 9432, 9486,
  10334, 10334, 10334, 10334, 10332, 10330, 10329, 10327, 10381, 10435, 10489, 10543, 10597, 10501, 10380,
  2142, 2142, 2142, 2158, 2196, 2234, 2273, 2311, 2360, 2409, 2458, 2508, 2557, 2606, 2631,
  2379, 2379, 2379, 2396, 2434, 2472, 2510, 2513, 2514, 2563, 2613, 2662, 2698, 2697, 2696,
  2625, 2625, 2625, 2635, 2657, 2679, 2712, 2715, 2716, 2752, 2751, 2751, 2750, 2749, 2749,
  2985, 2985, 2985, 2995, 3017, 3039, 3000, 2888, 2925, 2889, 2888, 2888, 2887, 2887, 2914,
  3477, 3477, 3477, 3444, 3333, 3221, 3109, 2998, 3035, 3071, 3108, 3145, 3109, 3109, 3136,
  3704, 3704, 3704, 3656, 3544, 3432, 3321, 3209, 3246, 3283, 3320, 3357, 3394, 3430, 3410,
  4201, 4201, 4201, 4172, 4104, 3993, 3881, 3769, 3806, 3843, 3880, 3915, 3951, 3986, 3965,
  4629, 4629, 4629, 4600, 4532, 4465, 4397, 4330, 4365, 4400, 4435, 4471, 4506, 4541, 4520,
  5358, 5358, 5358, 5329, 5261, 5247, 5233, 5098, 5016, 5007, 4997, 5033, 5068, 5103, 5138,
  5999, 5999, 5999, 5993, 5979, 5965, 5951, 5816, 5734, 5725, 5715, 5706, 5696, 5687, 5722,
  6731, 6731, 6731, 6698, 6684, 6670, 6656, 6642, 6544, 6531, 6522, 6512, 6503, 6493, 6484,
  7695, 7695, 7695, 7671, 7615, 7672, 7537, 7523, 7424, 7412, 7399, 7387, 7374, 7365, 7355,
  8757, 8757, 8757, 8733, 8678, 8622, 8566, 8367, 8331, 8318, 8306, 8293, 8281, 8268, 8322,
  9553, 9553, 9553, 9529, 9330, 9329, 9327, 9326, 9289, 9277, 9264, 9318, 9372, 9426, 9480,
  10291, 10291, 10291, 10290, 10289, 10287, 10285, 10284, 10338, 10392, 10446, 10500, 10554, 10608, 10534,
  2131, 2131, 2131, 2147, 2185, 2223, 2262, 2263, 2223, 2272, 2321, 2371, 2420, 2469, 2518,
  2264, 2264, 2264, 2274, 2312, 2350, 2388, 2426, 2476, 2525, 2574, 2623, 2623, 2622, 2571,
  2515, 2515, 2515, 2524, 2546, 2568, 2590, 2629, 2678, 2677, 2677, 2676, 2675, 2675, 2623,
  2943, 2943, 2943, 2952, 2974, 2992, 2914, 2769, 2768, 2768, 2767, 2766, 2798, 2834, 2824,
  3396, 3396, 3396, 3359, 3247, 3135, 3024, 2878, 2878, 2909, 2946, 2983, 3020, 3057, 3047,
  3667, 3667, 3667, 3619, 3507, 3395, 3283, 3172, 3209, 3246, 3282, 3319, 3356, 3360, 3374,
  4067, 4067, 4067, 4038, 4034, 3955, 3844, 3732, 3769, 3806, 3809, 3824, 3859, 3895, 3930,
  4495, 4495, 4495, 4465, 4398, 4330, 4263, 4259, 4274, 4309, 4344, 4379, 4415, 4450, 4485,
  5095, 5095, 5095, 5066, 4999, 4939, 4925, 4911, 4902, 4892, 4921, 4956, 4991, 5027, 5069,
  5691, 5691, 5691, 5685, 5671, 5657, 5643, 5629, 5619, 5610, 5600, 5591, 5582, 5610, 5652,
  6601, 6601, 6601, 6595, 6581, 6567, 6511, 6455, 6443, 6430, 6421, 6411, 6402, 6392, 6361,
  7583, 7583, 7583, 7559, 7503, 7447, 7391, 7336, 7323, 7311, 7298, 7286, 7273, 7264, 7232,
  8308, 8308, 8308, 8284, 8228, 8172, 8116, 8152, 8069, 8056, 8044, 8031, 8019, 8006, 7994,
  9103, 9103, 9103, 9079, 9115, 9114, 9112, 9110, 9164, 9218, 9272, 9189, 9177, 9164, 9152,
  10076, 10076, 10076, 10075, 10074, 10072, 10070, 10069, 10123, 10177, 10231, 10285, 10339, 10393, 10309,
  2251, 2251, 2251, 2268, 2297, 2291, 2286, 2280, 2224, 2169, 2113, 2140, 2189, 2238, 2288,
  2196, 2196, 2196, 2203, 2241, 2280, 2318, 2347, 2373, 2423, 2472, 2521, 2461, 2400, 2340,
  2428, 2428, 2428, 2436, 2457, 2479, 2501, 2539, 2588, 2588, 2587, 2574, 2519, 2487, 2454,
  2861, 2861, 2861, 2868, 2886, 2903, 2831, 2679, 2679, 2686, 2723, 2748, 2730, 2708, 2675,
  3249, 3249, 3249, 3256, 3203, 3131, 3028, 2837, 2816, 2841, 2878, 2915, 2952, 2933, 2915,
  3555, 3555, 3555, 3558, 3503, 3399, 3288, 3176, 3213, 3250, 3278, 3279, 3283, 3262, 3242,
  3934, 3934, 3934, 3937, 3945, 3873, 3800, 3728, 3725, 3723, 3721, 3731, 3742, 3753, 3783,
  4227, 4227, 4227, 4198, 4147, 4155, 4162, 4170, 4181, 4192, 4203, 4233, 4268, 4303, 4338,
  4917, 4917, 4917, 4910, 4843, 4775, 4708, 4656, 4686, 4721, 4757, 4792, 4835, 4879, 4922,
  5474, 5474, 5474, 5467, 5411, 5385, 5371, 5357, 5348, 5338, 5338, 5375, 5414, 5436, 5457,
  6257, 6257, 6257, 6299, 6309, 6295, 6239, 6184, 6171, 6158, 6149, 6134, 6099, 6076, 6097,
  7192, 7192, 7192, 7180, 7129, 7074, 7018, 6962, 6950, 6937, 6924, 6924, 6970, 6935, 6899,
  7767, 7767, 7767, 7743, 7693, 7664, 7636, 7678, 7571, 7616, 7662, 7662, 7649, 7637, 7624,
  8476, 8476, 8476, 8451, 8494, 8537, 8580, 8588, 8607, 8499, 8392, 8284, 8271, 8259, 8246,
  9524, 9524, 9524, 9543, 9551, 9549, 9548, 9546, 9600, 9654, 9708, 9727, 9620, 9512, 9404,
  2322, 2322, 2322, 2320, 2314, 2309, 2303, 2298, 2242, 2186, 2130, 2075, 2019, 2007, 2057,
  2317, 2317, 2317, 2324, 2362, 2375, 2370, 2364, 2308, 2253, 2241, 2290, 2230, 2186, 2153,
  2350, 2350, 2350, 2358, 2375, 2392, 2411, 2449, 2499, 2464, 2419, 2387, 2354, 2321, 2288,
  2720, 2720, 2720, 2727, 2744, 2762, 2741, 2613, 2616, 2653, 2635, 2608, 2575, 2543, 2510,
  2977, 2977, 2977, 2972, 2973, 2990, 2970, 2841, 2821, 2800, 2779, 2783, 2820, 2801, 2775,
  3314, 3314, 3314, 3309, 3298, 3295, 3269, 3180, 3194, 3200, 3192, 3172, 3151, 3130, 3110,
  3718, 3718, 3718, 3722, 3729, 3737, 3711, 3639, 3637, 3642, 3653, 3663, 3674, 3667, 3646,
  4047, 4047, 4047, 4050, 4058, 4066, 4073, 4081, 4092, 4103, 4114, 4124, 4135, 4156, 4192,
  4650, 4650, 4650, 4643, 4576, 4552, 4559, 4567, 4578, 4589, 4610, 4645, 4688, 4719, 4741,
  5204, 5204, 5204, 5198, 5183, 5168, 5131, 5086, 5102, 5142, 5173, 5194, 5216, 5238, 5259,
  5836, 5836, 5836, 5830, 5862, 5959, 5919, 5863, 5851, 5872, 5837, 5834, 5856, 5878, 5899,
  6658, 6658, 6658, 6645, 6617, 6588, 6548, 6492, 6479, 6500, 6546, 6592, 6637, 6602, 6600,
  7264, 7264, 7264, 7252, 7223, 7194, 7165, 7208, 7100, 7146, 7191, 7237, 7283, 7304, 7291,
  7941, 7941, 7941, 7929, 7972, 8014, 8057, 8100, 7992, 7884, 7776, 7669, 7714, 7735, 7723,
  8897, 8897, 8897, 8915, 8958, 9001, 9025, 9023, 9077, 9037, 8930, 8822, 8714, 8606, 8498,
  2298, 2298, 2298, 2296, 2290, 2285, 2279, 2274, 2218, 2162, 2106, 2051, 1995, 1953, 1950,
  2335, 2335, 2335, 2333, 2327, 2322, 2333, 2350, 2317, 2279, 2223, 2167, 2112, 2068, 2061,
  2341, 2341, 2341, 2348, 2365, 2382, 2399, 2417, 2384, 2351, 2318, 2286, 2247, 2204, 2196,
  2535, 2535, 2535, 2530, 2539, 2557, 2574, 2591, 2558, 2526, 2493, 2463, 2443, 2425, 2418,
  2848, 2848, 2848, 2843, 2832, 2821, 2810, 2819, 2790, 2769, 2749, 2728, 2707, 2690, 2682,
  3071, 3071, 3071, 3066, 3055, 3044, 3033, 3041, 3051, 3031, 3010, 2989, 2969, 2934, 2881,
  3456, 3456, 3456, 3452, 3459, 3467, 3475, 3483, 3494, 3504, 3515, 3526, 3505, 3471, 3398,
  3814, 3814, 3814, 3817, 3825, 3833, 3841, 3849, 3859, 3870, 3881, 3892, 3903, 3916, 3935,
  4279, 4279, 4279, 4314, 4313, 4319, 4327, 4334, 4313, 4334, 4356, 4366, 4377, 4388, 4399,
  4751, 4751, 4751, 4745, 4731, 4742, 4813, 4812, 4799, 4820, 4841, 4863, 4885, 4906, 4917,
  5330, 5330, 5330, 5324, 5310, 5296, 5281, 5267, 5289, 5310, 5332, 5354, 5375, 5422, 5472,
  5994, 5994, 5994, 5982, 5953, 5924, 5910, 5895, 5917, 5939, 5984, 6030, 6076, 6122, 6172,
  6668, 6668, 6668, 6655, 6627, 6598, 6569, 6612, 6504, 6550, 6595, 6641, 6686, 6756, 6869,
  7345, 7345, 7345, 7332, 7375, 7418, 7461, 7504, 7396, 7288, 7180, 7072, 7118, 7187, 7323,
  8100, 8100, 8100, 8118, 8161, 8204, 8246, 8289, 8355, 8293, 8185, 8078, 7970, 7862, 7754,
  2202, 2202, 2202, 2202, 2202, 2198, 2193, 2187, 2132, 2076, 2042, 2039, 2036, 2033, 2029,
  2279, 2279, 2279, 2293, 2292, 2289, 2283, 2278, 2222, 2166, 2133, 2130, 2122, 2114, 2106,
  2286, 2286, 2286, 2295, 2321, 2331, 2338, 2355, 2323, 2280, 2245, 2237, 2229, 2221, 2213,
  2369, 2369, 2369, 2409, 2502, 2536, 2525, 2530, 2502, 2482, 2466, 2458, 2451, 2443, 2435,
  2623, 2623, 2623, 2618, 2607, 2602, 2605, 2608, 2609, 2610, 2599, 2578, 2558, 2550, 2542,
  2788, 2788, 2788, 2789, 2792, 2786, 2775, 2783, 2794, 2773, 2731, 2689, 2691, 2692, 2693,
  3119, 3119, 3119, 3120, 3119, 3123, 3131, 3139, 3150, 3161, 3175, 3194, 3122, 3049, 3008,
  3381, 3381, 3381, 3380, 3380, 3384, 3392, 3400, 3410, 3421, 3436, 3455, 3474, 3493, 3513,
  3856, 3856, 3856, 3875, 3874, 3873, 3873, 3790, 3809, 3827, 3846, 3857, 3868, 3882, 3901,
  4121, 4121, 4121, 4139, 4180, 4221, 4263, 4262, 4249, 4268, 4287, 4305, 4326, 4348, 4358,
  4622, 4622, 4622, 4640, 4681, 4691, 4677, 4662, 4684, 4706, 4726, 4745, 4764, 4814, 4863,
  5244, 5244, 5244, 5223, 5176, 5139, 5124, 5110, 5132, 5153, 5201, 5251, 5301, 5351, 5400,
  5688, 5688, 5688, 5705, 5783, 5812, 5784, 5826, 5718, 5764, 5848, 5947, 5997, 6047, 6097,
  6307, 6307, 6307, 6353, 6448, 6513, 6555, 6598, 6664, 6631, 6523, 6415, 6550, 6686, 6784,
  6952, 6952, 6952, 6993, 7087, 7152, 7195, 7238, 7304, 7370, 7436, 7502, 7468, 7360, 7252,
  2197, 2197, 2197, 2197, 2197, 2196, 2194, 2161, 2143, 2139, 2136, 2133, 2129, 2126, 2123,
  2144, 2144, 2144, 2144, 2143, 2143, 2163, 2184, 2176, 2168, 2165, 2162, 2159, 2158, 2199,
  2181, 2181, 2181, 2190, 2211, 2232, 2253, 2274, 2266, 2258, 2251, 2243, 2235, 2234, 2273,
  2248, 2248, 2248, 2249, 2269, 2290, 2311, 2332, 2325, 2317, 2309, 2301, 2303, 2304, 2295,
  2345, 2345, 2345, 2346, 2349, 2352, 2355, 2375, 2367, 2369, 2370, 2371, 2373, 2373, 2365,
  2470, 2470, 2470, 2471, 2473, 2476, 2478, 2490, 2491, 2493, 2494, 2495, 2498, 2513, 2466,
  2735, 2735, 2735, 2735, 2734, 2737, 2738, 2750, 2752, 2754, 2773, 2793, 2812, 2827, 2777,
  2967, 2967, 2967, 2967, 2966, 2965, 2965, 2975, 2976, 2995, 3014, 3033, 3053, 3072, 3091,
  3284, 3284, 3284, 3284, 3283, 3283, 3287, 3366, 3384, 3403, 3422, 3423, 3441, 3461, 3480,
  3575, 3575, 3575, 3593, 3634, 3673, 3677, 3752, 3771, 3790, 3809, 3828, 3846, 3866, 3867,
  3882, 3882, 3882, 3900, 3941, 3982, 4020, 4089, 4113, 4132, 4151, 4169, 4188, 4238, 4288,
  4291, 4291, 4291, 4309, 4348, 4387, 4425, 4494, 4518, 4537, 4587, 4637, 4687, 4736, 4786,
  4775, 4775, 4775, 4792, 4831, 4870, 4909, 4821, 4898, 4949, 4999, 5049, 5099, 5149, 5199,
  5335, 5335, 5335, 5376, 5471, 5510, 5548, 5455, 5521, 5587, 5654, 5732, 5782, 5832, 5882,
  5767, 5767, 5767, 5808, 5903, 5997, 6087, 6095, 6161, 6227, 6293, 6359, 6425, 6491, 6570,
  2544, 2544, 2544, 2530, 2497, 2464, 2431, 2399, 2381, 2363, 2345, 2327, 2309, 2291, 2277,
  2423, 2423, 2423, 2419, 2395, 2362, 2329, 2297, 2279, 2261, 2243, 2229, 2234, 2226, 2217,
  2251, 2251, 2251, 2247, 2238, 2228, 2219, 2195, 2181, 2186, 2178, 2169, 2161, 2152, 2143,
  2211, 2211, 2211, 2207, 2198, 2188, 2199, 2207, 2224, 2237, 2228, 2219, 2211, 2202, 2194,
  2205, 2205, 2205, 2210, 2220, 2231, 2241, 2250, 2267, 2284, 2301, 2317, 2330, 2322, 2313,
  2285, 2285, 2285, 2289, 2300, 2311, 2321, 2341, 2347, 2345, 2362, 2379, 2396, 2413, 2430,
  2454, 2454, 2454, 2459, 2469, 2470, 2481, 2501, 2502, 2503, 2504, 2510, 2508, 2525, 2542,
  2615, 2615, 2615, 2619, 2629, 2640, 2650, 2660, 2661, 2662, 2663, 2664, 2665, 2666, 2672,
  2798, 2798, 2798, 2803, 2813, 2846, 2862, 2878, 2900, 2924, 2947, 2948, 2949, 2950, 2951,
  3008, 3008, 3008, 3015, 3031, 3047, 3062, 3078, 3100, 3124, 3147, 3171, 3194, 3218, 3219,
  3237, 3237, 3237, 3244, 3259, 3282, 3304, 3338, 3378, 3413, 3436, 3460, 3483, 3507, 3537,
  3501, 3501, 3501, 3510, 3532, 3554, 3576, 3610, 3649, 3689, 3728, 3767, 3802, 3826, 3856,
  3829, 3829, 3829, 3838, 3860, 3882, 3904, 3895, 3935, 3974, 4013, 4052, 4092, 4142, 4213,
  4161, 4161, 4161, 4165, 4172, 4194, 4216, 4207, 4247, 4286, 4336, 4415, 4493, 4572, 4643,
  4517, 4517, 4517, 4520, 4527, 4535, 4542, 4550, 4625, 4704, 4782, 4861, 4939, 5018, 5097]

theorem bFit50_length : bFit50.length = 3375 := by decide +kernel

theorem bFit50_bounds : (bFit50.all fun x => Nat.ble 1950 x && Nat.ble x 16232) = true := by
  decide +kernel

/-- `a_fit`, `galacticus_truncation/johnsonSUparams_MW_rmax200kpc.py` 3-377. -/
def aFit200 : List Nat := [
  6131, 6131, 6131, 6133, 6136, 6140, 6143, 6147, 6074, 6001, 5928, 5855, 5783, 5710, 5640,
  6007, 6007, 6007, 6008, 6010, 6013, 6017, 6020, 5947, 5874, 5801, 5732, 5719, 5707, 5694,
  5883, 5883, 5883, 5884, 5887, 5889, 5891, 5893, 5823, 5811, 5798, 5786, 5773, 5761, 5748,
  5813, 5813, 5813, 5814, 5816, 5818, 5821, 5820, 5818, 5815, 5802, 5790, 5777, 5764, 5752,
  5796, 5796, 5796, 5790, 5776, 5763, 5766, 5765, 5763, 5760, 5758, 5755, 5752, 5740, 5727,
  5762, 5762, 5762, 5756, 5743, 5729, 5715, 5705, 5717, 5715, 5712, 5710, 5708, 5705, 5703,
  5711, 5711, 5711, 5694, 5656, 5643, 5629, 5619, 5631, 5646, 5660, 5675, 5673, 5670, 5668,
  5702, 5702, 5702, 5686, 5648, 5610, 5572, 5533, 5544, 5559, 5574, 5589, 5604, 5618, 5633,
  5711, 5711, 5711, 5695, 5656, 5701, 5746, 5790, 5683, 5576, 5468, 5480, 5495, 5510, 5525,
  5849, 5849, 5849, 5869, 5914, 5958, 6003, 6048, 5941, 5834, 5726, 5619, 5512, 5404, 5416,
  5923, 5923, 5923, 5943, 5988, 6033, 6077, 6122, 6089, 6057, 5950, 5843, 5735, 5628, 5521,
  5814, 5814, 5814, 5848, 5928, 6008, 6053, 6098, 6065, 6033, 6000, 5968, 5936, 5829, 5721,
  5671, 5671, 5671, 5706, 5786, 5865, 5945, 6016, 6010, 5979, 5947, 5915, 5882, 5850, 5818,
  5607, 5607, 5607, 5601, 5589, 5669, 5748, 5819, 5813, 5809, 5805, 5801, 5770, 5738, 5706,
  5687, 5687, 5687, 5682, 5669, 5657, 5644, 5631, 5627, 5623, 5620, 5616, 5612, 5608, 5601,
  3458, 3458, 3458, 3447, 3422, 3402, 3406, 3409, 3336, 3263, 3240, 3228, 3215, 3203, 3190,
  3444, 3444, 3444, 3431, 3406, 3381, 3356, 3331, 3318, 3306, 3293, 3281, 3268, 3255, 3243,
  3506, 3506, 3506, 3494, 3464, 3435, 3405, 3380, 3367, 3355, 3342, 3329, 3316, 3303, 3291,
  3572, 3572, 3572, 3565, 3567, 3570, 3465, 3474, 3459, 3444, 3431, 3418, 3405, 3393, 3380,
  3770, 3770, 3770, 3725, 3620, 3562, 3514, 3581, 3568, 3553, 3537, 3522, 3507, 3494, 3482,
  3727, 3727, 3727, 3706, 3659, 3611, 3563, 3625, 3583, 3568, 3553, 3537, 3524, 3522, 3520,
  3863, 3863, 3863, 3836, 3773, 3725, 3677, 3629, 3827, 3785, 3743, 3701, 3688, 3685, 3683,
  4154, 4154, 4154, 4126, 4063, 4000, 3936, 3873, 3831, 3789, 3747, 3705, 3673, 3688, 3702,
  4182, 4182, 4182, 4155, 4091, 4047, 4092, 4137, 4030, 3922, 3869, 3827, 3785, 3743, 3721,
  4441, 4441, 4441, 4421, 4372, 4328, 4372, 4417, 4310, 4203, 4149, 4128, 4110, 4093, 4076,
  4769, 4769, 4769, 4739, 4640, 4566, 4611, 4656, 4612, 4568, 4550, 4533, 4500, 4393, 4286,
  4980, 4980, 4980, 4937, 4837, 4770, 4815, 4860, 4815, 4771, 4727, 4683, 4641, 4533, 4426,
  5218, 5218, 5218, 5175, 5076, 4976, 4877, 4778, 4733, 4689, 4645, 4601, 4564, 4555, 4523,
  5221, 5221, 5221, 5215, 5203, 5103, 5004, 4905, 4860, 4816, 4772, 4768, 4764, 4716, 4657,
  5517, 5517, 5517, 5469, 5359, 5266, 5253, 5240, 5237, 5233, 5184, 5126, 5068, 5009, 4951,
  2288, 2288, 2288, 2277, 2252, 2227, 2202, 2183, 2176, 2163, 2151, 2138, 2126, 2113, 2101,
  2351, 2351, 2351, 2340, 2321, 2285, 2256, 2226, 2213, 2200, 2194, 2187, 2174, 2162, 2149,
  2406, 2406, 2406, 2393, 2364, 2334, 2305, 2275, 2262, 2250, 2237, 2224, 2211, 2204, 2197,
  2501, 2501, 2501, 2488, 2458, 2429, 2399, 2370, 2363, 2348, 2335, 2322, 2309, 2296, 2283,
  2650, 2650, 2650, 2630, 2582, 2546, 2516, 2486, 2480, 2464, 2449, 2434, 2419, 2406, 2393,
  2861, 2861, 2861, 2841, 2793, 2745, 2688, 2648, 2628, 2597, 2581, 2566, 2551, 2536, 2520,
  3149, 3149, 3149, 3122, 3058, 2995, 2931, 2891, 2872, 2830, 2788, 2746, 2714, 2699, 2684,
  3383, 3383, 3383, 3356, 3292, 3229, 3166, 3132, 3113, 3071, 3029, 2987, 2945, 2903, 2861,
  3613, 3613, 3613, 3586, 3553, 3506, 3459, 3413, 3396, 3379, 3361, 3342, 3300, 3258, 3216,
  3900, 3900, 3900, 3880, 3833, 3786, 3740, 3693, 3676, 3659, 3642, 3625, 3607, 3590, 3571,
  4214, 4214, 4214, 4194, 4147, 4101, 4034, 3934, 3874, 3829, 3814, 3797, 3780, 3763, 3746,
  4590, 4590, 4590, 4550, 4450, 4351, 4252, 4152, 4091, 4047, 4003, 3959, 3915, 3900, 3883,
  4861, 4861, 4861, 4818, 4718, 4619, 4520, 4410, 4360, 4316, 4272, 4227, 4183, 4139, 4105,
  5230, 5230, 5230, 5186, 5076, 4966, 4856, 4745, 4696, 4652, 4608, 4573, 4515, 4457, 4399,
  5513, 5513, 5513, 5465, 5355, 5245, 5134, 5076, 5042, 4983, 4925, 4867, 4809, 4751, 4693,
  2319, 2319, 2319, 2309, 2283, 2258, 2240, 2225, 2221, 2215, 2203, 2190, 2178, 2165, 2153,
  2385, 2385, 2385, 2378, 2363, 2323, 2286, 2256, 2244, 2238, 2236, 2232, 2226, 2213, 2201,
  2439, 2439, 2439, 2424, 2394, 2365, 2335, 2306, 2293, 2280, 2267, 2254, 2249, 2246, 2243,
  2531, 2531, 2531, 2519, 2489, 2460, 2430, 2400, 2399, 2394, 2381, 2368, 2356, 2343, 2330,
  2661, 2661, 2661, 2640, 2606, 2576, 2547, 2517, 2516, 2511, 2496, 2480, 2465, 2452, 2439,
  2872, 2872, 2872, 2851, 2803, 2744, 2709, 2683, 2678, 2663, 2628, 2613, 2597, 2582, 2567,
  3142, 3142, 3142, 3114, 3051, 2987, 2952, 2926, 2921, 2907, 2865, 2823, 2781, 2745, 2730,
  3358, 3358, 3358, 3331, 3268, 3204, 3178, 3163, 3158, 3143, 3101, 3059, 3017, 2975, 2933,
  3604, 3604, 3604, 3598, 3583, 3537, 3490, 3444, 3426, 3409, 3392, 3387, 3372, 3330, 3288,
  3913, 3913, 3913, 3893, 3846, 3800, 3753, 3707, 3690, 3672, 3655, 3638, 3621, 3606, 3601,
  4190, 4190, 4190, 4169, 4123, 4076, 4030, 3970, 3878, 3834, 3820, 3806, 3789, 3772, 3754,
  4566, 4566, 4566, 4546, 4486, 4386, 4287, 4188, 4096, 4052, 4007, 3963, 3919, 3906, 3891,
  4896, 4896, 4896, 4853, 4754, 4654, 4555, 4445, 4392, 4348, 4304, 4259, 4215, 4178, 4159,
  5265, 5265, 5265, 5222, 5112, 5001, 4891, 4781, 4721, 4677, 4633, 4614, 4584, 4526, 4468,
  5443, 5443, 5443, 5395, 5285, 5174, 5127, 5102, 5082, 5053, 4995, 4936, 4878, 4820, 4762,
  2351, 2351, 2351, 2340, 2315, 2298, 2282, 2267, 2263, 2259, 2255, 2242, 2230, 2217, 2204,
  2427, 2427, 2427, 2420, 2405, 2365, 2325, 2287, 2283, 2280, 2277, 2274, 2270, 2265, 2253,
  2473, 2473, 2473, 2463, 2425, 2395, 2366, 2336, 2323, 2311, 2298, 2294, 2290, 2288, 2285,
  2548, 2548, 2548, 2535, 2506, 2490, 2460, 2431, 2429, 2428, 2425, 2412, 2399, 2386, 2373,
  2679, 2679, 2679, 2666, 2637, 2607, 2577, 2551, 2546, 2545, 2542, 2527, 2511, 2499, 2486,
  2882, 2882, 2882, 2861, 2800, 2769, 2744, 2718, 2713, 2707, 2698, 2659, 2644, 2628, 2613,
  3134, 3134, 3134, 3107, 3043, 3013, 2987, 2961, 2956, 2951, 2941, 2899, 2857, 2815, 2776,
  3334, 3334, 3334, 3306, 3243, 3223, 3208, 3194, 3189, 3184, 3174, 3132, 3090, 3048, 3006,
  3635, 3635, 3635, 3628, 3614, 3568, 3521, 3474, 3457, 3440, 3423, 3418, 3413, 3403, 3361,
  3908, 3908, 3908, 3897, 3851, 3804, 3758, 3711, 3694, 3677, 3660, 3643, 3629, 3615, 3610,
  4160, 4160, 4160, 4140, 4093, 4047, 4000, 3981, 3882, 3838, 3825, 3811, 3797, 3780, 3763,
  4539, 4539, 4539, 4521, 4475, 4422, 4322, 4223, 4124, 4080, 4036, 3992, 3956, 3943, 3929,
  4907, 4907, 4907, 4888, 4789, 4690, 4590, 4480, 4427, 4383, 4339, 4295, 4259, 4225, 4205,
  5275, 5275, 5275, 5257, 5147, 5037, 4926, 4816, 4747, 4703, 4659, 4639, 4620, 4596, 4537,
  5372, 5372, 5372, 5325, 5214, 5178, 5153, 5127, 5108, 5088, 5064, 5006, 4948, 4889, 4831,
  2382, 2382, 2382, 2371, 2355, 2340, 2324, 2309, 2305, 2301, 2298, 2294, 2281, 2269, 2256,
  2469, 2469, 2469, 2462, 2446, 2407, 2367, 2328, 2325, 2322, 2319, 2316, 2312, 2308, 2305,
  2487, 2487, 2487, 2481, 2465, 2426, 2396, 2367, 2354, 2341, 2338, 2335, 2332, 2330, 2328,
  2561, 2561, 2561, 2548, 2534, 2521, 2491, 2461, 2460, 2459, 2456, 2454, 2441, 2428, 2416,
  2710, 2710, 2710, 2697, 2667, 2637, 2612, 2586, 2581, 2575, 2574, 2573, 2558, 2545, 2532,
  2883, 2883, 2883, 2856, 2830, 2804, 2778, 2753, 2747, 2742, 2737, 2732, 2690, 2675, 2660,
  3111, 3111, 3111, 3084, 3070, 3044, 3018, 2992, 2987, 2982, 2977, 2972, 2930, 2888, 2846,
  3309, 3309, 3309, 3282, 3268, 3253, 3239, 3225, 3220, 3214, 3209, 3204, 3162, 3120, 3078,
  3665, 3665, 3665, 3659, 3644, 3598, 3552, 3505, 3488, 3471, 3454, 3448, 3443, 3438, 3433,
  3877, 3877, 3877, 3870, 3855, 3809, 3762, 3716, 3699, 3681, 3664, 3651, 3637, 3624, 3618,
  4129, 4129, 4129, 4109, 4062, 4016, 4001, 3986, 3887, 3843, 3829, 3816, 3802, 3789, 3772,
  4508, 4508, 4508, 4491, 4450, 4404, 4357, 4258, 4160, 4115, 4071, 4037, 4003, 3989, 3976,
  4852, 4852, 4852, 4844, 4824, 4725, 4626, 4516, 4463, 4418, 4374, 4340, 4306, 4271, 4252,
  5207, 5207, 5207, 5198, 5088, 4978, 4868, 4843, 4773, 4728, 4684, 4665, 4645, 4626, 4606,
  5302, 5302, 5302, 5255, 5230, 5204, 5178, 5153, 5133, 5114, 5094, 5075, 5017, 4959, 4901,
  2420, 2420, 2420, 2413, 2397, 2382, 2366, 2350, 2347, 2343, 2339, 2336, 2332, 2321, 2308,
  2483, 2483, 2483, 2477, 2461, 2445, 2409, 2370, 2367, 2364, 2360, 2357, 2353, 2349, 2347,
  2499, 2499, 2499, 2493, 2480, 2464, 2428, 2397, 2386, 2383, 2379, 2377, 2375, 2373, 2370,
  2584, 2584, 2584, 2578, 2565, 2551, 2521, 2492, 2490, 2489, 2487, 2485, 2482, 2471, 2458,
  2740, 2740, 2740, 2727, 2698, 2672, 2647, 2621, 2616, 2610, 2605, 2603, 2602, 2591, 2578,
  2902, 2902, 2902, 2891, 2865, 2839, 2813, 2788, 2782, 2777, 2772, 2767, 2762, 2725, 2706,
  3121, 3121, 3121, 3115, 3101, 3075, 3049, 3023, 3018, 3013, 3008, 3003, 2997, 2961, 2918,
  3319, 3319, 3319, 3313, 3299, 3284, 3270, 3256, 3250, 3245, 3240, 3235, 3230, 3193, 3151,
  3634, 3634, 3634, 3628, 3613, 3598, 3556, 3509, 3492, 3476, 3462, 3457, 3452, 3447, 3441,
  3845, 3845, 3845, 3839, 3824, 3809, 3767, 3720, 3703, 3686, 3673, 3659, 3646, 3632, 3627,
  4098, 4098, 4098, 4077, 4035, 4020, 4005, 3990, 3895, 3853, 3839, 3825, 3812, 3798, 3785,
  4465, 4465, 4465, 4457, 4419, 4378, 4332, 4290, 4195, 4152, 4118, 4084, 4049, 4036, 4022,
  4798, 4798, 4798, 4789, 4769, 4749, 4661, 4551, 4498, 4455, 4421, 4387, 4352, 4318, 4298,
  5137, 5137, 5137, 5128, 5018, 4920, 4894, 4868, 4808, 4765, 4731, 4711, 4692, 4672, 4653,
  5292, 5292, 5292, 5281, 5255, 5229, 5204, 5178, 5159, 5139, 5120, 5100, 5081, 5028, 4970,
  2461, 2461, 2461, 2455, 2439, 2424, 2408, 2392, 2389, 2385, 2381, 2378, 2374, 2370, 2360,
  2498, 2498, 2498, 2491, 2476, 2460, 2444, 2411, 2408, 2405, 2401, 2397, 2394, 2392, 2389,
  2512, 2512, 2512, 2506, 2492, 2479, 2464, 2430, 2427, 2424, 2422, 2420, 2417, 2415, 2413,
  2615, 2615, 2615, 2609, 2595, 2582, 2553, 2527, 2522, 2520, 2517, 2515, 2513, 2510, 2500,
  2771, 2771, 2771, 2759, 2733, 2707, 2682, 2656, 2650, 2645, 2640, 2635, 2633, 2630, 2621,
  2936, 2936, 2936, 2925, 2899, 2873, 2847, 2822, 2816, 2811, 2806, 2801, 2796, 2791, 2759,
  3152, 3152, 3152, 3146, 3132, 3106, 3080, 3054, 3049, 3044, 3039, 3033, 3028, 3023, 2991,
  3350, 3350, 3350, 3344, 3329, 3315, 3301, 3286, 3281, 3276, 3271, 3266, 3260, 3255, 3223,
  3603, 3603, 3603, 3596, 3582, 3567, 3552, 3514, 3498, 3484, 3471, 3466, 3460, 3455, 3450,
  3814, 3814, 3814, 3808, 3793, 3778, 3763, 3725, 3708, 3695, 3681, 3668, 3654, 3641, 3636,
  4066, 4066, 4066, 4055, 4040, 4025, 4010, 3995, 3933, 3899, 3885, 3872, 3858, 3845, 3831,
  4411, 4411, 4411, 4402, 4382, 4347, 4309, 4294, 4233, 4199, 4164, 4130, 4096, 4082, 4069,
  4739, 4739, 4739, 4731, 4711, 4691, 4671, 4584, 4536, 4502, 4467, 4433, 4399, 4364, 4345,
  5067, 5067, 5067, 5058, 4971, 4945, 4919, 4894, 4846, 4812, 4777, 4758, 4738, 4719, 4699,
  5317, 5317, 5317, 5306, 5281, 5255, 5229, 5204, 5184, 5165, 5145, 5126, 5106, 5087, 5039,
  2581, 2581, 2581, 2575, 2559, 2543, 2528, 2476, 2462, 2458, 2454, 2451, 2447, 2443, 2440,
  2536, 2536, 2536, 2531, 2515, 2499, 2484, 2468, 2465, 2461, 2457, 2454, 2451, 2449, 2463,
  2550, 2550, 2550, 2544, 2530, 2517, 2503, 2487, 2484, 2481, 2479, 2477, 2474, 2472, 2486,
  2682, 2682, 2682, 2676, 2663, 2631, 2578, 2579, 2577, 2575, 2573, 2570, 2566, 2560, 2515,
  2804, 2804, 2804, 2784, 2758, 2732, 2706, 2708, 2706, 2701, 2696, 2691, 2686, 2680, 2635,
  2958, 2958, 2958, 2947, 2921, 2895, 2869, 2844, 2838, 2833, 2828, 2823, 2818, 2773, 2759,
  3142, 3142, 3142, 3136, 3114, 3128, 3102, 3076, 3071, 3066, 3021, 3006, 3001, 2996, 2991,
  3340, 3340, 3340, 3334, 3320, 3305, 3291, 3269, 3254, 3249, 3244, 3239, 3233, 3228, 3223,
  3523, 3523, 3523, 3516, 3502, 3488, 3473, 3458, 3444, 3431, 3424, 3419, 3414, 3408, 3409,
  3735, 3735, 3735, 3728, 3713, 3698, 3683, 3668, 3655, 3641, 3628, 3614, 3601, 3594, 3595,
  4015, 4015, 4015, 4008, 3993, 3978, 3958, 3938, 3904, 3870, 3856, 3843, 3829, 3815, 3797,
  4326, 4326, 4326, 4318, 4298, 4278, 4258, 4238, 4204, 4169, 4135, 4101, 4066, 4053, 4034,
  4559, 4559, 4559, 4550, 4531, 4511, 4491, 4499, 4488, 4454, 4420, 4385, 4351, 4317, 4282,
  4886, 4886, 4886, 4878, 4885, 4860, 4834, 4808, 4789, 4770, 4750, 4740, 4705, 4671, 4637,
  5232, 5232, 5232, 5221, 5195, 5170, 5144, 5118, 5099, 5079, 5060, 5040, 5021, 5002, 4991,
  2841, 2841, 2841, 2834, 2809, 2751, 2692, 2633, 2617, 2601, 2585, 2579, 2575, 2572, 2568,
  2645, 2645, 2645, 2630, 2614, 2599, 2583, 2559, 2552, 2549, 2545, 2541, 2558, 2575, 2591,
  2647, 2647, 2647, 2632, 2614, 2600, 2586, 2571, 2567, 2565, 2563, 2564, 2572, 2547, 2521,
  2799, 2799, 2799, 2784, 2749, 2715, 2656, 2663, 2661, 2658, 2653, 2637, 2585, 2539, 2513,
  2872, 2872, 2872, 2857, 2804, 2745, 2713, 2752, 2729, 2721, 2715, 2710, 2705, 2653, 2601,
  2916, 2916, 2916, 2906, 2918, 2902, 2876, 2850, 2845, 2840, 2825, 2780, 2763, 2740, 2718,
  3044, 3044, 3044, 3034, 3010, 3031, 3052, 3072, 3021, 2969, 2917, 2901, 2884, 2868, 2861,
  3258, 3258, 3258, 3252, 3236, 3212, 3188, 3165, 3149, 3132, 3116, 3109, 3103, 3098, 3093,
  3379, 3379, 3379, 3357, 3343, 3328, 3314, 3298, 3290, 3285, 3280, 3274, 3276, 3277, 3279,
  3592, 3592, 3592, 3570, 3548, 3533, 3518, 3503, 3489, 3476, 3464, 3460, 3457, 3439, 3420,
  3819, 3819, 3819, 3833, 3828, 3813, 3793, 3773, 3738, 3704, 3690, 3676, 3656, 3636, 3618,
  4114, 4114, 4114, 4113, 4097, 4077, 4057, 4037, 4003, 3968, 3934, 3905, 3893, 3873, 3854,
  4276, 4276, 4276, 4267, 4251, 4249, 4247, 4261, 4252, 4241, 4229, 4200, 4166, 4131, 4097,
  4508, 4508, 4508, 4500, 4514, 4528, 4542, 4525, 4507, 4499, 4490, 4481, 4447, 4413, 4378,
  4923, 4923, 4923, 4929, 4911, 4886, 4860, 4834, 4815, 4796, 4776, 4759, 4750, 4742, 4733,
  3051, 3051, 3051, 3025, 2967, 2908, 2849, 2790, 2774, 2758, 2743, 2727, 2711, 2700, 2697,
  2905, 2905, 2905, 2890, 2874, 2833, 2775, 2716, 2700, 2684, 2673, 2670, 2686, 2679, 2653,
  2781, 2781, 2781, 2766, 2731, 2696, 2670, 2655, 2651, 2660, 2652, 2626, 2601, 2576, 2550,
  2869, 2869, 2869, 2854, 2819, 2785, 2740, 2728, 2712, 2707, 2655, 2618, 2593, 2567, 2542,
  2899, 2899, 2899, 2885, 2850, 2815, 2770, 2758, 2736, 2713, 2691, 2676, 2670, 2618, 2581,
  2939, 2939, 2939, 2924, 2890, 2860, 2855, 2856, 2824, 2793, 2773, 2750, 2728, 2705, 2683,
  3010, 3010, 3010, 3000, 2976, 2952, 2947, 2968, 2916, 2885, 2869, 2853, 2837, 2817, 2794,
  3166, 3166, 3166, 3155, 3132, 3108, 3084, 3061, 3044, 3028, 3012, 2996, 2980, 2968, 2963,
  3297, 3297, 3297, 3275, 3260, 3241, 3217, 3193, 3177, 3161, 3149, 3144, 3146, 3136, 3117,
  3435, 3435, 3435, 3429, 3416, 3387, 3352, 3337, 3328, 3327, 3317, 3298, 3280, 3262, 3243,
  3588, 3588, 3588, 3582, 3588, 3620, 3610, 3590, 3556, 3535, 3515, 3496, 3478, 3459, 3441,
  3837, 3837, 3837, 3836, 3834, 3832, 3823, 3803, 3769, 3747, 3736, 3724, 3713, 3693, 3674,
  4020, 4020, 4020, 4019, 4017, 4015, 4013, 4027, 4018, 4007, 3995, 3984, 3972, 3951, 3917,
  4219, 4219, 4219, 4218, 4232, 4246, 4260, 4274, 4265, 4256, 4248, 4239, 4227, 4206, 4172,
  4545, 4545, 4545, 4551, 4565, 4579, 4576, 4551, 4531, 4518, 4509, 4500, 4492, 4483, 4474,
  3462, 3462, 3462, 3437, 3378, 3319, 3260, 3201, 3186, 3170, 3154, 3138, 3122, 3100, 3059,
  3316, 3316, 3316, 3290, 3231, 3172, 3131, 3096, 3071, 3048, 3032, 3017, 3001, 2952, 2812,
  3176, 3176, 3176, 3161, 3127, 3092, 3057, 3022, 2997, 2971, 2946, 2920, 2898, 2849, 2709,
  3172, 3172, 3172, 3157, 3122, 3087, 3053, 3018, 2992, 2967, 2942, 2917, 2894, 2841, 2701,
  3201, 3201, 3201, 3186, 3152, 3118, 3083, 3049, 3024, 3001, 2979, 2956, 2934, 2880, 2740,
  3058, 3058, 3058, 3043, 3009, 2974, 2940, 2916, 2900, 2877, 2855, 2832, 2810, 2780, 2730,
  3118, 3118, 3118, 3103, 3080, 3056, 3032, 3009, 2992, 2976, 2960, 2944, 2921, 2891, 2841,
  3147, 3147, 3147, 3137, 3113, 3089, 3065, 3042, 3026, 3009, 2993, 2977, 2961, 2950, 2952,
  3273, 3273, 3273, 3292, 3250, 3222, 3198, 3175, 3120, 3107, 3089, 3072, 3056, 3040, 3024,
  3329, 3329, 3329, 3323, 3310, 3311, 3337, 3296, 3253, 3240, 3221, 3203, 3185, 3166, 3150,
  3444, 3444, 3444, 3438, 3425, 3411, 3398, 3384, 3366, 3348, 3329, 3311, 3292, 3283, 3281,
  3629, 3629, 3629, 3628, 3626, 3624, 3610, 3597, 3579, 3560, 3549, 3537, 3526, 3516, 3514,
  3814, 3814, 3814, 3813, 3811, 3809, 3807, 3821, 3812, 3801, 3789, 3778, 3766, 3750, 3728,
  4013, 4013, 4013, 4012, 4026, 4040, 4054, 4068, 4059, 4051, 4042, 4033, 4022, 4006, 3977,
  4194, 4194, 4194, 4200, 4214, 4228, 4242, 4256, 4276, 4275, 4267, 4258, 4249, 4241, 4232,
  4198, 4198, 4198, 4186, 4158, 4112, 4054, 3995, 3979, 3963, 3937, 3896, 3855, 3815, 3774,
  4051, 4051, 4051, 4039, 4011, 3965, 3907, 3848, 3832, 3816, 3790, 3749, 3609, 3469, 3328,
  3926, 3926, 3926, 3903, 3864, 3819, 3774, 3739, 3713, 3692, 3623, 3483, 3343, 3203, 3062,
  3617, 3617, 3617, 3665, 3776, 3804, 3769, 3735, 3710, 3688, 3615, 3475, 3335, 3194, 3054,
  3565, 3565, 3565, 3550, 3515, 3481, 3447, 3413, 3364, 3316, 3282, 3259, 3237, 3097, 2956,
  3315, 3315, 3315, 3300, 3266, 3232, 3197, 3174, 3157, 3135, 3100, 3051, 3002, 2953, 2905,
  3334, 3334, 3334, 3319, 3278, 3247, 3223, 3199, 3183, 3167, 3159, 3161, 3111, 3060, 3010,
  3289, 3289, 3289, 3271, 3230, 3199, 3175, 3151, 3135, 3119, 3111, 3113, 3116, 3118, 3121,
  3439, 3439, 3439, 3430, 3389, 3348, 3306, 3149, 3151, 3154, 3156, 3140, 3124, 3115, 3118,
  3374, 3374, 3374, 3365, 3345, 3324, 3304, 3263, 3220, 3222, 3225, 3227, 3217, 3199, 3183,
  3394, 3394, 3394, 3385, 3364, 3348, 3335, 3321, 3303, 3284, 3275, 3277, 3279, 3277, 3275,
  3555, 3555, 3555, 3533, 3483, 3461, 3447, 3434, 3415, 3397, 3389, 3387, 3385, 3382, 3380,
  3619, 3619, 3619, 3618, 3635, 3646, 3644, 3658, 3649, 3638, 3619, 3601, 3599, 3596, 3594,
  3792, 3792, 3792, 3804, 3803, 3810, 3824, 3838, 3859, 3863, 3854, 3845, 3816, 3787, 3769,
  3912, 3912, 3912, 3912, 3910, 3918, 3932, 3946, 3966, 3986, 4007, 4027, 4031, 4022, 4014,
  4956, 4956, 4956, 4944, 4916, 4888, 4860, 4838, 4814, 4774, 4733, 4692, 4652, 4611, 4570,
  4761, 4761, 4761, 4748, 4721, 4693, 4641, 4588, 4447, 4313, 4272, 4231, 4191, 4151, 4125,
  4676, 4676, 4676, 4653, 4600, 4547, 4494, 4441, 4300, 4160, 4020, 3880, 3745, 3705, 3679,
  4348, 4348, 4348, 4333, 4281, 4228, 4175, 4122, 3981, 3841, 3701, 3566, 3517, 3469, 3438,
  3886, 3886, 3886, 3871, 3837, 3803, 3769, 3717, 3581, 3533, 3484, 3435, 3387, 3339, 3308,
  3649, 3649, 3649, 3634, 3600, 3565, 3526, 3527, 3479, 3430, 3381, 3333, 3287, 3281, 3146,
  3611, 3611, 3611, 3593, 3552, 3518, 3478, 3479, 3431, 3385, 3387, 3390, 3392, 3387, 3246,
  3582, 3582, 3582, 3564, 3523, 3481, 3435, 3291, 3335, 3339, 3342, 3344, 3347, 3349, 3352,
  3470, 3470, 3470, 3452, 3411, 3369, 3328, 3289, 3291, 3293, 3296, 3339, 3344, 3346, 3349,
  3418, 3418, 3418, 3409, 3388, 3367, 3326, 3287, 3289, 3291, 3294, 3296, 3298, 3300, 3344,
  3332, 3332, 3332, 3323, 3303, 3282, 3282, 3355, 3351, 3353, 3355, 3357, 3360, 3357, 3355,
  3375, 3375, 3375, 3374, 3373, 3371, 3371, 3444, 3440, 3442, 3439, 3437, 3435, 3432, 3430,
  3470, 3470, 3470, 3470, 3468, 3466, 3466, 3442, 3443, 3441, 3439, 3436, 3434, 3432, 3429,
  3577, 3577, 3577, 3577, 3575, 3574, 3573, 3547, 3568, 3588, 3607, 3609, 3606, 3604, 3602,
  3631, 3631, 3631, 3630, 3629, 3627, 3627, 3655, 3675, 3695, 3716, 3736, 3756, 3776, 3777,
  6000, 6000, 6000, 5990, 5968, 5946, 5924, 5902, 5877, 5852, 5827, 5802, 5778, 5753, 5724,
  5590, 5590, 5590, 5550, 5526, 5504, 5482, 5460, 5435, 5410, 5385, 5356, 5326, 5295, 5264,
  5362, 5362, 5362, 5322, 5228, 5135, 5042, 5018, 4989, 4959, 4928, 4896, 4865, 4833, 4802,
  5032, 5032, 5032, 4991, 4898, 4805, 4800, 4786, 4743, 4698, 4667, 4635, 4604, 4572, 4541,
  4688, 4688, 4688, 4686, 4680, 4675, 4669, 4656, 4613, 4569, 4526, 4483, 4438, 4407, 4375,
  4444, 4444, 4444, 4442, 4437, 4431, 4425, 4457, 4489, 4419, 4375, 4332, 4289, 4246, 4202,
  4232, 4232, 4232, 4169, 4026, 3983, 3978, 4009, 4053, 4096, 4140, 4172, 4102, 4058, 4015,
  4198, 4198, 4198, 4136, 3992, 3849, 3705, 3561, 3605, 3649, 3692, 3736, 3779, 3823, 3855,
  3883, 3883, 3883, 3821, 3678, 3645, 3615, 3585, 3583, 3578, 3574, 3618, 3661, 3705, 3748,
  3744, 3744, 3744, 3731, 3701, 3672, 3642, 3612, 3609, 3605, 3601, 3596, 3592, 3588, 3631,
  3610, 3610, 3610, 3597, 3567, 3540, 3558, 3590, 3580, 3571, 3567, 3562, 3558, 3554, 3550,
  3428, 3428, 3428, 3436, 3454, 3472, 3490, 3523, 3513, 3502, 3492, 3481, 3473, 3468, 3464,
  3403, 3403, 3403, 3411, 3429, 3447, 3465, 3472, 3462, 3451, 3441, 3430, 3420, 3413, 3413,
  3372, 3372, 3372, 3384, 3411, 3429, 3447, 3454, 3444, 3433, 3426, 3428, 3429, 3430, 3431,
  3328, 3328, 3328, 3339, 3366, 3393, 3421, 3448, 3454, 3456, 3457, 3459, 3460, 3462, 3463]

theorem aFit200_length : aFit200.length = 3375 := by decide +kernel

theorem aFit200_bounds : (aFit200.all fun x => Nat.ble 2101 x && Nat.ble x 6147) = true := by
  decide +kernel

/-- `b_fit`, `galacticus_truncation/johnsonSUparams_MW_rmax200kpc.py` 378-799. -/
def bFit200 : List Nat := [
  15600, 15600, 15600, 15586, 15556, 15525, 15495, 15464, 15317, 15170, 15024, 14877, 14730, 14583, 14443,
  15345, 15345, 15345, 15349, 15317, 15286, 15255, 15225, 15078, 14931, 14785, 14644, 14611, 14578, 14545,
  14984, 14984, 14984, 14989, 14998, 15008, 15018, 14986, 14845, 14812, 14779, 14746, 14713, 14680, 14647,
  14765, 14765, 14765, 14769, 14779, 14789, 14799, 14802, 14807, 14809, 14776, 14743, 14710, 14677, 14644,
  14736, 14736, 14736, 14711, 14653, 14599, 14609, 14612, 14618, 14623, 14628, 14633, 14636, 14603, 14569,
  14690, 14690, 14690, 14665, 14608, 14551, 14493, 14449, 14466, 14471, 14476, 14482, 14487, 14492, 14497,
  14564, 14564, 14564, 14529, 14448, 14391, 14333, 14288, 14306, 14330, 14355, 14379, 14384, 14389, 14394,
  14493, 14493, 14493, 14458, 14377, 14296, 14215, 14128, 14146, 14170, 14194, 14219, 14243, 14267, 14291,
  14567, 14567, 14567, 14532, 14445, 14551, 14657, 14763, 14525, 14287, 14050, 14067, 14092, 14116, 14140,
  14928, 14928, 14928, 14974, 15080, 15186, 15292, 15397, 15160, 14922, 14684, 14446, 14209, 13971, 13989,
  15166, 15166, 15166, 15212, 15318, 15424, 15529, 15635, 15506, 15376, 15139, 14901, 14663, 14425, 14188,
  14898, 14898, 14898, 14994, 15214, 15434, 15540, 15646, 15516, 15387, 15258, 15128, 14999, 14761, 14523,
  14509, 14509, 14509, 14604, 14824, 15045, 15265, 15459, 15433, 15309, 15180, 15050, 14921, 14792, 14662,
  14308, 14308, 14308, 14288, 14241, 14461, 14681, 14875, 14849, 14829, 14809, 14789, 14665, 14536, 14407,
  14529, 14529, 14529, 14508, 14462, 14415, 14368, 14321, 14301, 14281, 14261, 14241, 14221, 14201, 14173,
  6736, 6736, 6736, 6708, 6644, 6586, 6555, 6525, 6378, 6231, 6183, 6156, 6130, 6103, 6076,
  6739, 6739, 6739, 6705, 6641, 6577, 6513, 6449, 6422, 6395, 6368, 6342, 6303, 6270, 6237,
  7140, 7140, 7140, 7106, 7026, 6947, 6867, 6803, 6776, 6736, 6696, 6656, 6617, 6584, 6551,
  7489, 7489, 7489, 7470, 7480, 7490, 7142, 7250, 7203, 7156, 7116, 7076, 7037, 7004, 6971,
  8145, 8145, 8145, 7995, 7647, 7487, 7368, 7703, 7665, 7618, 7571, 7525, 7478, 7445, 7412,
  8054, 8054, 8054, 8002, 7883, 7763, 7643, 7826, 7724, 7677, 7630, 7583, 7545, 7550, 7555,
  8537, 8537, 8537, 8457, 8273, 8153, 8034, 7914, 8469, 8367, 8266, 8164, 8126, 8131, 8136,
  9477, 9477, 9477, 9397, 9212, 9028, 8844, 8660, 8558, 8456, 8354, 8252, 8173, 8197, 8221,
  9568, 9568, 9568, 9488, 9304, 9171, 9277, 9382, 9145, 8907, 8781, 8679, 8577, 8475, 8400,
  10487, 10487, 10487, 10420, 10260, 10127, 10232, 10338, 10101, 9863, 9737, 9662, 9592, 9523, 9454,
  11592, 11592, 11592, 11500, 11206, 10983, 11089, 11195, 11059, 10924, 10855, 10785, 10686, 10449, 10211,
  12367, 12367, 12367, 12240, 11946, 11743, 11848, 11954, 11819, 11684, 11548, 11413, 11279, 11041, 10804,
  13071, 13071, 13071, 12943, 12649, 12355, 12061, 11767, 11632, 11496, 11361, 11226, 11111, 11072, 10942,
  13167, 13167, 13167, 13147, 13100, 12806, 12512, 12217, 12082, 11947, 11812, 11792, 11772, 11621, 11443,
  14183, 14183, 14183, 14040, 13709, 13429, 13382, 13335, 13315, 13295, 13145, 12966, 12788, 12610, 12431,
  2675, 2675, 2675, 2647, 2583, 2519, 2455, 2424, 2409, 2383, 2356, 2329, 2303, 2276, 2249,
  3076, 3076, 3076, 3048, 3017, 2926, 2847, 2767, 2727, 2687, 2658, 2644, 2617, 2590, 2563,
  3475, 3475, 3475, 3440, 3361, 3281, 3201, 3122, 3082, 3042, 3001, 2961, 2921, 2892, 2878,
  3899, 3899, 3899, 3864, 3785, 3705, 3626, 3569, 3546, 3499, 3459, 3419, 3379, 3339, 3298,
  4465, 4465, 4465, 4413, 4293, 4198, 4119, 4062, 4039, 3992, 3945, 3899, 3852, 3811, 3771,
  5187, 5187, 5187, 5135, 5016, 4896, 4737, 4644, 4596, 4515, 4468, 4421, 4374, 4327, 4280,
  6115, 6115, 6115, 6035, 5851, 5666, 5482, 5390, 5341, 5240, 5138, 5036, 4955, 4908, 4861,
  6855, 6855, 6855, 6775, 6591, 6407, 6222, 6138, 6087, 5985, 5883, 5781, 5680, 5578, 5476,
  7724, 7724, 7724, 7644, 7560, 7405, 7249, 7094, 7024, 6955, 6886, 6835, 6733, 6631, 6529,
  8739, 8739, 8739, 8671, 8516, 8360, 8205, 8050, 7980, 7911, 7842, 7772, 7703, 7634, 7583,
  9794, 9794, 9794, 9726, 9571, 9415, 9207, 8913, 8737, 8602, 8550, 8481, 8412, 8342, 8273,
  11016, 11016, 11016, 10896, 10601, 10307, 10013, 9719, 9544, 9409, 9273, 9138, 9003, 8951, 8882,
  11970, 11970, 11970, 11842, 11548, 11254, 10960, 10629, 10485, 10350, 10214, 10079, 9944, 9809, 9700,
  13196, 13196, 13196, 13069, 12739, 12408, 12078, 11747, 11603, 11468, 11332, 11223, 11045, 10867, 10688,
  14152, 14152, 14152, 14008, 13678, 13348, 13017, 12856, 12747, 12569, 12390, 12212, 12033, 11855, 11676,
  2573, 2573, 2573, 2546, 2481, 2417, 2393, 2383, 2376, 2364, 2337, 2310, 2284, 2257, 2230,
  2991, 2991, 2991, 2987, 2976, 2878, 2784, 2705, 2665, 2639, 2617, 2610, 2598, 2571, 2545,
  3416, 3416, 3416, 3378, 3298, 3219, 3139, 3059, 3019, 2979, 2939, 2899, 2873, 2862, 2852,
  3795, 3795, 3795, 3760, 3681, 3601, 3549, 3506, 3499, 3482, 3441, 3401, 3361, 3321, 3281,
  4315, 4315, 4315, 4264, 4174, 4094, 4042, 4000, 3992, 3975, 3928, 3881, 3834, 3794, 3754,
  5038, 5038, 5038, 4986, 4866, 4698, 4626, 4591, 4576, 4538, 4450, 4403, 4356, 4309, 4262,
  5892, 5892, 5892, 5812, 5628, 5444, 5371, 5337, 5321, 5284, 5182, 5080, 4978, 4890, 4843,
  6622, 6622, 6622, 6542, 6358, 6174, 6110, 6088, 6069, 6029, 5928, 5826, 5724, 5622, 5520,
  7542, 7542, 7542, 7533, 7510, 7355, 7200, 7044, 6975, 6905, 6836, 6817, 6777, 6675, 6574,
  8649, 8649, 8649, 8581, 8426, 8270, 8115, 7960, 7890, 7821, 7752, 7682, 7613, 7565, 7546,
  9599, 9599, 9599, 9532, 9377, 9221, 9066, 8875, 8627, 8491, 8451, 8403, 8333, 8264, 8195,
  10822, 10822, 10822, 10755, 10564, 10270, 9976, 9682, 9433, 9298, 9163, 9027, 8892, 8851, 8803,
  11932, 11932, 11932, 11805, 11511, 11217, 10923, 10592, 10442, 10306, 10171, 10036, 9901, 9807, 9741,
  13159, 13159, 13159, 13032, 12701, 12371, 12041, 11710, 11548, 11413, 11278, 11212, 11118, 10940, 10761,
  13786, 13786, 13786, 13642, 13312, 12982, 12857, 12802, 12736, 12642, 12464, 12285, 12107, 11928, 11750,
  2471, 2471, 2471, 2444, 2380, 2363, 2352, 2342, 2335, 2328, 2318, 2292, 2265, 2238, 2211,
  2950, 2950, 2950, 2946, 2935, 2837, 2739, 2642, 2619, 2598, 2576, 2569, 2562, 2552, 2526,
  3347, 3347, 3347, 3332, 3236, 3156, 3077, 2997, 2957, 2917, 2877, 2853, 2844, 2834, 2823,
  3663, 3663, 3663, 3628, 3549, 3529, 3487, 3444, 3437, 3429, 3415, 3375, 3334, 3294, 3254,
  4184, 4184, 4184, 4149, 4070, 4022, 3980, 3945, 3930, 3922, 3910, 3863, 3816, 3776, 3736,
  4888, 4888, 4888, 4836, 4660, 4607, 4573, 4538, 4523, 4507, 4481, 4386, 4339, 4292, 4245,
  5669, 5669, 5669, 5590, 5405, 5353, 5318, 5284, 5268, 5253, 5227, 5125, 5023, 4921, 4826,
  6389, 6389, 6389, 6309, 6125, 6083, 6061, 6039, 6020, 6001, 5972, 5870, 5768, 5666, 5564,
  7493, 7493, 7493, 7483, 7461, 7305, 7150, 6995, 6925, 6856, 6787, 6768, 6749, 6720, 6618,
  8500, 8500, 8500, 8470, 8315, 8160, 8004, 7849, 7779, 7710, 7641, 7571, 7527, 7487, 7468,
  9363, 9363, 9363, 9296, 9140, 8985, 8830, 8781, 8516, 8381, 8340, 8299, 8255, 8186, 8116,
  10613, 10613, 10613, 10560, 10405, 10233, 9939, 9645, 9379, 9244, 9109, 8974, 8887, 8846, 8806,
  11819, 11819, 11819, 11768, 11474, 11179, 10885, 10555, 10404, 10269, 10134, 9999, 9912, 9832, 9767,
  13046, 13046, 13046, 12995, 12664, 12334, 12003, 11673, 11494, 11358, 11223, 11158, 11092, 11013, 10835,
  13420, 13420, 13420, 13277, 12946, 12858, 12802, 12747, 12682, 12616, 12537, 12359, 12180, 12002, 11823,
  2369, 2369, 2369, 2342, 2332, 2322, 2311, 2301, 2294, 2287, 2280, 2272, 2246, 2219, 2192,
  2908, 2908, 2908, 2904, 2893, 2796, 2697, 2599, 2578, 2556, 2535, 2528, 2521, 2514, 2507,
  3207, 3207, 3207, 3202, 3192, 3094, 3014, 2935, 2895, 2855, 2833, 2826, 2815, 2805, 2794,
  3523, 3523, 3523, 3490, 3478, 3467, 3424, 3382, 3374, 3367, 3356, 3345, 3305, 3265, 3225,
  4079, 4079, 4079, 4045, 4003, 3960, 3926, 3891, 3876, 3860, 3853, 3845, 3798, 3758, 3718,
  4701, 4701, 4701, 4623, 4588, 4554, 4519, 4485, 4469, 4454, 4438, 4423, 4322, 4274, 4227,
  5437, 5437, 5437, 5359, 5337, 5303, 5268, 5234, 5218, 5203, 5187, 5168, 5067, 4965, 4863,
  6156, 6156, 6156, 6078, 6056, 6033, 6011, 5989, 5970, 5951, 5932, 5914, 5813, 5711, 5609,
  7441, 7441, 7441, 7432, 7409, 7255, 7100, 6944, 6875, 6806, 6737, 6718, 6699, 6680, 6661,
  8252, 8252, 8252, 8237, 8203, 8049, 7893, 7738, 7669, 7599, 7530, 7490, 7449, 7408, 7389,
  9115, 9115, 9115, 9047, 8892, 8738, 8704, 8670, 8405, 8270, 8229, 8188, 8148, 8107, 8038,
  10365, 10365, 10365, 10318, 10210, 10055, 9900, 9607, 9342, 9207, 9072, 8992, 8913, 8872, 8831,
  11506, 11506, 11506, 11484, 11434, 11142, 10848, 10518, 10367, 10232, 10097, 10017, 9938, 9858, 9792,
  12686, 12686, 12686, 12664, 12334, 12003, 11676, 11620, 11439, 11304, 11169, 11104, 11039, 10973, 10908,
  13054, 13054, 13054, 12914, 12858, 12803, 12748, 12692, 12627, 12562, 12496, 12431, 12253, 12075, 11897,
  2306, 2306, 2306, 2301, 2291, 2281, 2270, 2260, 2253, 2246, 2238, 2231, 2224, 2200, 2174,
  2767, 2767, 2767, 2763, 2753, 2742, 2656, 2558, 2537, 2517, 2510, 2503, 2496, 2488, 2477,
  3067, 3067, 3067, 3062, 3051, 3040, 2955, 2872, 2835, 2816, 2808, 2797, 2786, 2775, 2764,
  3432, 3432, 3432, 3427, 3416, 3405, 3362, 3321, 3312, 3304, 3294, 3283, 3272, 3236, 3196,
  4001, 4001, 4001, 3983, 3941, 3907, 3873, 3838, 3823, 3807, 3791, 3783, 3775, 3739, 3699,
  4584, 4584, 4584, 4570, 4535, 4501, 4466, 4432, 4416, 4401, 4385, 4369, 4354, 4264, 4209,
  5319, 5319, 5319, 5310, 5288, 5253, 5219, 5184, 5169, 5153, 5138, 5119, 5100, 5010, 4908,
  6038, 6038, 6038, 6028, 6006, 5984, 5962, 5940, 5921, 5902, 5883, 5864, 5845, 5755, 5653,
  7193, 7193, 7193, 7183, 7161, 7127, 6989, 6834, 6764, 6699, 6658, 6640, 6621, 6602, 6583,
  8003, 8003, 8003, 7989, 7955, 7921, 7783, 7627, 7558, 7493, 7452, 7411, 7371, 7330, 7311,
  8866, 8866, 8866, 8799, 8661, 8627, 8593, 8559, 8303, 8176, 8135, 8095, 8054, 8013, 7973,
  10083, 10083, 10083, 10061, 9962, 9854, 9699, 9561, 9305, 9178, 9098, 9018, 8938, 8897, 8857,
  11193, 11193, 11193, 11171, 11121, 11070, 10811, 10480, 10330, 10203, 10123, 10043, 9963, 9883, 9818,
  12320, 12320, 12320, 12298, 11968, 11676, 11621, 11566, 11402, 11275, 11195, 11129, 11064, 10999, 10933,
  12883, 12883, 12883, 12859, 12804, 12748, 12693, 12638, 12572, 12507, 12442, 12376, 12311, 12148, 11970,
  2265, 2265, 2265, 2260, 2250, 2239, 2229, 2219, 2212, 2204, 2197, 2190, 2183, 2176, 2155,
  2627, 2627, 2627, 2622, 2612, 2602, 2591, 2517, 2500, 2492, 2485, 2478, 2470, 2459, 2448,
  2928, 2928, 2928, 2923, 2911, 2900, 2889, 2815, 2798, 2790, 2779, 2768, 2757, 2746, 2735,
  3370, 3370, 3370, 3365, 3354, 3342, 3302, 3267, 3252, 3242, 3231, 3220, 3209, 3199, 3166,
  3939, 3939, 3939, 3923, 3888, 3854, 3819, 3785, 3769, 3754, 3738, 3723, 3713, 3702, 3670,
  4532, 4532, 4532, 4517, 4483, 4448, 4414, 4379, 4364, 4348, 4333, 4317, 4301, 4286, 4207,
  5270, 5270, 5270, 5260, 5238, 5204, 5169, 5135, 5119, 5104, 5088, 5069, 5050, 5031, 4952,
  5988, 5988, 5988, 5979, 5956, 5934, 5912, 5890, 5871, 5852, 5833, 5814, 5796, 5777, 5697,
  6944, 6944, 6944, 6935, 6913, 6879, 6845, 6723, 6661, 6621, 6580, 6561, 6542, 6523, 6504,
  7755, 7755, 7755, 7740, 7706, 7672, 7639, 7517, 7455, 7414, 7374, 7333, 7292, 7252, 7233,
  8618, 8618, 8618, 8584, 8550, 8516, 8483, 8449, 8281, 8202, 8161, 8120, 8079, 8039, 7998,
  9770, 9770, 9770, 9749, 9698, 9606, 9484, 9450, 9283, 9203, 9123, 9043, 8963, 8923, 8882,
  10868, 10868, 10868, 10846, 10795, 10745, 10694, 10439, 10308, 10228, 10148, 10068, 9988, 9909, 9843,
  11954, 11954, 11954, 11932, 11677, 11622, 11566, 11511, 11380, 11300, 11220, 11155, 11089, 11024, 10959,
  12828, 12828, 12828, 12804, 12749, 12694, 12639, 12583, 12518, 12452, 12387, 12322, 12256, 12191, 12043,
  2192, 2192, 2192, 2188, 2177, 2167, 2157, 2143, 2146, 2139, 2131, 2124, 2117, 2110, 2103,
  2444, 2444, 2444, 2439, 2428, 2418, 2408, 2397, 2390, 2383, 2376, 2369, 2358, 2347, 2390,
  2745, 2745, 2745, 2740, 2729, 2717, 2706, 2696, 2689, 2678, 2667, 2656, 2645, 2634, 2677,
  3228, 3228, 3228, 3223, 3212, 3209, 3120, 3140, 3129, 3118, 3108, 3097, 3082, 3066, 3012,
  3774, 3774, 3774, 3741, 3706, 3672, 3637, 3658, 3647, 3632, 3616, 3601, 3585, 3570, 3515,
  4352, 4352, 4352, 4337, 4303, 4269, 4234, 4200, 4184, 4168, 4153, 4137, 4122, 4025, 4028,
  4981, 4981, 4981, 4972, 4977, 5024, 4989, 4955, 4939, 4924, 4827, 4830, 4811, 4792, 4773,
  5700, 5700, 5700, 5690, 5668, 5646, 5624, 5629, 5632, 5613, 5594, 5575, 5556, 5537, 5519,
  6480, 6480, 6480, 6471, 6448, 6425, 6391, 6357, 6316, 6276, 6253, 6234, 6215, 6197, 6247,
  7300, 7300, 7300, 7286, 7252, 7218, 7184, 7150, 7110, 7069, 7028, 6988, 6947, 6925, 6975,
  8266, 8266, 8266, 8251, 8218, 8184, 8133, 8083, 8003, 7923, 7882, 7842, 7801, 7760, 7730,
  9308, 9308, 9308, 9286, 9236, 9185, 9135, 9084, 9004, 8924, 8845, 8765, 8685, 8644, 8614,
  10078, 10078, 10078, 10056, 10005, 9955, 9904, 9957, 9974, 9894, 9814, 9734, 9654, 9575, 9495,
  11164, 11164, 11164, 11142, 11195, 11140, 11085, 11029, 10964, 10899, 10833, 10850, 10770, 10690, 10610,
  12347, 12347, 12347, 12323, 12267, 12212, 12157, 12101, 12036, 11971, 11905, 11840, 11774, 11709, 11726,
  2063, 2063, 2063, 2059, 2048, 2034, 2020, 2006, 2010, 2014, 2018, 2014, 2007, 1999, 1992,
  2191, 2191, 2191, 2191, 2180, 2170, 2160, 2149, 2144, 2137, 2130, 2122, 2175, 2227, 2279,
  2479, 2479, 2479, 2478, 2469, 2457, 2446, 2436, 2429, 2418, 2407, 2409, 2451, 2454, 2457,
  2952, 2952, 2952, 2951, 2950, 2949, 2850, 2880, 2869, 2857, 2842, 2816, 2755, 2708, 2711,
  3450, 3450, 3450, 3450, 3372, 3272, 3224, 3319, 3318, 3306, 3290, 3274, 3259, 3198, 3137,
  3814, 3814, 3814, 3819, 3869, 3855, 3821, 3786, 3771, 3755, 3719, 3633, 3638, 3637, 3636,
  4322, 4322, 4322, 4326, 4337, 4398, 4460, 4521, 4410, 4298, 4186, 4193, 4200, 4207, 4194,
  4983, 4983, 4983, 4973, 4958, 4968, 4978, 4989, 4996, 5003, 5010, 4996, 4977, 4958, 4939,
  5666, 5666, 5666, 5631, 5609, 5587, 5565, 5550, 5536, 5518, 5499, 5480, 5542, 5605, 5668,
  6494, 6494, 6494, 6460, 6426, 6395, 6361, 6327, 6286, 6245, 6209, 6208, 6259, 6267, 6275,
  7323, 7323, 7323, 7388, 7394, 7360, 7310, 7259, 7179, 7099, 7059, 7021, 6992, 6971, 6979,
  8314, 8314, 8314, 8334, 8303, 8253, 8202, 8152, 8072, 7992, 7912, 7854, 7876, 7847, 7819,
  8798, 8798, 8798, 8776, 8746, 8791, 8836, 8908, 8939, 8961, 8983, 8925, 8845, 8765, 8685,
  9614, 9614, 9614, 9592, 9665, 9737, 9810, 9782, 9737, 9768, 9800, 9831, 9751, 9672, 9592,
  11016, 11016, 11016, 11048, 11020, 10965, 10909, 10854, 10789, 10723, 10658, 10613, 10644, 10676, 10707,
  1931, 1931, 1931, 1925, 1911, 1897, 1883, 1869, 1873, 1877, 1881, 1886, 1890, 1889, 1882,
  2062, 2062, 2062, 2062, 2052, 2039, 2025, 2012, 2016, 2020, 2019, 2012, 2064, 2088, 2091,
  2194, 2194, 2194, 2194, 2193, 2192, 2186, 2176, 2169, 2194, 2218, 2221, 2223, 2226, 2229,
  2635, 2635, 2635, 2635, 2633, 2632, 2590, 2583, 2575, 2560, 2499, 2475, 2477, 2480, 2483,
  2953, 2953, 2953, 2955, 2957, 2956, 2913, 2906, 2905, 2904, 2903, 2896, 2880, 2819, 2795,
  3307, 3307, 3307, 3309, 3313, 3320, 3352, 3373, 3302, 3259, 3262, 3261, 3259, 3258, 3257,
  3762, 3762, 3762, 3767, 3777, 3787, 3819, 3881, 3769, 3726, 3733, 3740, 3747, 3750, 3749,
  4303, 4303, 4303, 4307, 4317, 4328, 4338, 4348, 4355, 4362, 4369, 4376, 4383, 4379, 4360,
  4949, 4949, 4949, 4914, 4892, 4889, 4899, 4909, 4916, 4923, 4920, 4901, 4963, 4994, 5003,
  5575, 5575, 5575, 5584, 5606, 5585, 5530, 5503, 5475, 5504, 5535, 5543, 5551, 5559, 5567,
  6193, 6193, 6193, 6202, 6278, 6429, 6434, 6384, 6304, 6283, 6254, 6247, 6255, 6263, 6271,
  7053, 7053, 7053, 7073, 7118, 7162, 7167, 7116, 7036, 7016, 7037, 7059, 7081, 7052, 7045,
  7647, 7647, 7647, 7666, 7711, 7755, 7800, 7873, 7904, 7926, 7948, 7969, 7991, 7970, 7890,
  8366, 8366, 8366, 8386, 8458, 8531, 8603, 8676, 8707, 8739, 8770, 8801, 8823, 8802, 8722,
  9466, 9466, 9466, 9498, 9570, 9643, 9662, 9606, 9541, 9532, 9563, 9594, 9626, 9657, 9689,
  1903, 1903, 1903, 1897, 1883, 1869, 1855, 1842, 1846, 1850, 1854, 1858, 1862, 1864, 1859,
  1989, 1989, 1989, 1983, 1969, 1955, 1950, 1949, 1952, 1955, 1959, 1963, 1967, 1958, 1909,
  2097, 2097, 2097, 2096, 2095, 2094, 2093, 2091, 2094, 2097, 2100, 2102, 2105, 2096, 2048,
  2356, 2356, 2356, 2358, 2358, 2357, 2356, 2354, 2357, 2360, 2363, 2364, 2363, 2350, 2302,
  2662, 2662, 2662, 2664, 2669, 2673, 2677, 2678, 2680, 2678, 2677, 2676, 2675, 2662, 2614,
  2888, 2888, 2888, 2890, 2895, 2899, 2904, 2914, 2921, 2920, 2919, 2918, 2917, 2907, 2882,
  3338, 3338, 3338, 3340, 3350, 3361, 3371, 3381, 3388, 3395, 3402, 3409, 3408, 3399, 3365,
  3724, 3724, 3724, 3728, 3738, 3749, 3759, 3769, 3776, 3783, 3790, 3797, 3804, 3819, 3857,
  4250, 4250, 4250, 4289, 4300, 4310, 4320, 4330, 4289, 4307, 4315, 4322, 4329, 4336, 4343,
  4720, 4720, 4720, 4729, 4751, 4791, 4863, 4874, 4850, 4868, 4876, 4885, 4893, 4901, 4908,
  5273, 5273, 5273, 5282, 5304, 5326, 5347, 5369, 5377, 5386, 5394, 5402, 5410, 5438, 5482,
  5950, 5950, 5950, 5969, 6014, 6059, 6080, 6102, 6110, 6118, 6140, 6162, 6184, 6211, 6255,
  6632, 6632, 6632, 6652, 6696, 6741, 6786, 6858, 6890, 6911, 6933, 6955, 6977, 6985, 6976,
  7352, 7352, 7352, 7371, 7444, 7516, 7589, 7662, 7693, 7724, 7756, 7787, 7809, 7817, 7789,
  8015, 8015, 8015, 8047, 8119, 8192, 8265, 8337, 8420, 8464, 8496, 8527, 8559, 8590, 8621,
  2009, 2009, 2009, 2011, 2013, 2006, 1992, 1979, 1983, 1987, 1987, 1982, 1977, 1973, 1968,
  2075, 2075, 2075, 2070, 2073, 2066, 2052, 2038, 2042, 2046, 2047, 2042, 1994, 1946, 1898,
  2172, 2172, 2172, 2171, 2162, 2149, 2142, 2141, 2144, 2147, 2129, 2081, 2033, 1985, 1937,
  2194, 2194, 2194, 2241, 2350, 2399, 2403, 2404, 2405, 2404, 2383, 2335, 2287, 2239, 2191,
  2441, 2441, 2441, 2443, 2447, 2453, 2461, 2468, 2465, 2463, 2461, 2460, 2459, 2411, 2363,
  2594, 2594, 2594, 2598, 2605, 2611, 2615, 2625, 2632, 2631, 2617, 2596, 2594, 2591, 2588,
  2959, 2959, 2959, 2962, 2972, 2983, 2993, 3003, 3010, 3017, 3037, 3075, 3041, 3008, 2988,
  3237, 3237, 3237, 3241, 3252, 3262, 3272, 3282, 3289, 3296, 3316, 3354, 3391, 3429, 3466,
  3764, 3764, 3764, 3774, 3784, 3794, 3804, 3639, 3684, 3729, 3774, 3781, 3788, 3808, 3845,
  4084, 4084, 4084, 4094, 4116, 4138, 4161, 4171, 4148, 4193, 4238, 4283, 4306, 4315, 4322,
  4504, 4504, 4504, 4514, 4536, 4558, 4580, 4601, 4609, 4618, 4642, 4686, 4731, 4775, 4820,
  5131, 5131, 5131, 5112, 5069, 5076, 5098, 5119, 5128, 5136, 5167, 5211, 5255, 5299, 5343,
  5564, 5564, 5564, 5585, 5678, 5758, 5803, 5876, 5907, 5929, 5929, 5932, 5976, 6020, 6064,
  6214, 6214, 6214, 6270, 6325, 6390, 6462, 6535, 6617, 6671, 6702, 6733, 6705, 6677, 6680,
  6746, 6746, 6746, 6770, 6825, 6890, 6962, 7035, 7118, 7200, 7282, 7365, 7418, 7450, 7481,
  2124, 2124, 2124, 2126, 2128, 2131, 2133, 2127, 2123, 2118, 2113, 2108, 2104, 2099, 2094,
  2129, 2129, 2129, 2130, 2132, 2135, 2132, 2128, 2080, 2034, 2030, 2025, 2020, 2016, 2024,
  2203, 2203, 2203, 2202, 2198, 2195, 2191, 2188, 2140, 2092, 2044, 1995, 1950, 1946, 1953,
  2220, 2220, 2220, 2223, 2220, 2216, 2213, 2209, 2161, 2113, 2065, 2020, 2017, 2014, 2011,
  2189, 2189, 2189, 2192, 2200, 2207, 2215, 2212, 2166, 2164, 2161, 2158, 2155, 2153, 2150,
  2287, 2287, 2287, 2290, 2298, 2305, 2308, 2331, 2328, 2325, 2322, 2320, 2319, 2350, 2267,
  2562, 2562, 2562, 2567, 2577, 2584, 2587, 2610, 2607, 2606, 2644, 2681, 2719, 2749, 2662,
  2798, 2798, 2798, 2802, 2813, 2823, 2830, 2783, 2836, 2874, 2911, 2949, 2986, 3024, 3061,
  3070, 3070, 3070, 3075, 3085, 3095, 3106, 3139, 3184, 3229, 3274, 3327, 3365, 3403, 3440,
  3398, 3398, 3398, 3408, 3430, 3451, 3463, 3495, 3540, 3585, 3630, 3675, 3720, 3764, 3817,
  3706, 3706, 3706, 3715, 3737, 3760, 3806, 3911, 3943, 3987, 4032, 4077, 4122, 4166, 4210,
  4113, 4113, 4113, 4133, 4180, 4227, 4274, 4379, 4410, 4455, 4499, 4543, 4587, 4631, 4675,
  4591, 4591, 4591, 4612, 4658, 4705, 4752, 4737, 4772, 4816, 4860, 4904, 4948, 4992, 5036,
  5080, 5080, 5080, 5104, 5159, 5205, 5252, 5234, 5317, 5399, 5479, 5515, 5559, 5603, 5647,
  5495, 5495, 5495, 5519, 5574, 5629, 5683, 5734, 5817, 5899, 5982, 6064, 6147, 6227, 6262,
  2353, 2353, 2353, 2350, 2344, 2339, 2333, 2327, 2323, 2318, 2314, 2310, 2305, 2301, 2297,
  2252, 2252, 2252, 2241, 2237, 2232, 2226, 2220, 2216, 2211, 2207, 2203, 2203, 2200, 2197,
  2203, 2203, 2203, 2192, 2167, 2142, 2116, 2113, 2109, 2109, 2106, 2103, 2100, 2097, 2094,
  2163, 2163, 2163, 2152, 2127, 2102, 2119, 2134, 2130, 2127, 2124, 2121, 2119, 2116, 2113,
  2131, 2131, 2131, 2138, 2156, 2173, 2190, 2205, 2201, 2198, 2195, 2191, 2188, 2185, 2182,
  2168, 2168, 2168, 2175, 2193, 2210, 2227, 2273, 2321, 2294, 2291, 2288, 2284, 2281, 2278,
  2266, 2266, 2266, 2245, 2198, 2188, 2205, 2250, 2303, 2356, 2409, 2458, 2431, 2427, 2424,
  2436, 2436, 2436, 2416, 2369, 2322, 2275, 2228, 2281, 2334, 2387, 2440, 2493, 2545, 2594,
  2553, 2553, 2553, 2533, 2486, 2509, 2527, 2546, 2582, 2613, 2645, 2698, 2751, 2804, 2857,
  2777, 2777, 2777, 2785, 2804, 2823, 2842, 2861, 2896, 2928, 2959, 2991, 3023, 3054, 3107,
  3027, 3027, 3027, 3035, 3054, 3073, 3119, 3180, 3202, 3227, 3258, 3290, 3322, 3353, 3389,
  3261, 3261, 3261, 3281, 3326, 3372, 3418, 3479, 3501, 3523, 3545, 3567, 3591, 3623, 3658,
  3599, 3599, 3599, 3619, 3664, 3710, 3755, 3784, 3806, 3828, 3850, 3872, 3894, 3920, 3958,
  3911, 3911, 3911, 3933, 3984, 4029, 4075, 4104, 4126, 4148, 4173, 4209, 4245, 4281, 4319,
  4214, 4214, 4214, 4236, 4287, 4338, 4389, 4440, 4489, 4524, 4560, 4596, 4632, 4667, 4703]

theorem bFit200_length : bFit200.length = 3375 := by decide +kernel

theorem bFit200_bounds : (bFit200.all fun x => Nat.ble 1842 x && Nat.ble x 15646) = true := by
  decide +kernel

/-- `_log10_mbound_over_minfall`, `galacticus_truncation/tabulated_mass_loss_Keeley24.py` 2-2; minus 1000 times the entries. -/
def meanKeeley : List Nat := [
  0, 0, 0, 0, 0, 0, 0, 0, 0, 0, 0, 0, 0, 0, 0,
  0, 0, 0, 0, 0, 0, 0, 0, 0, 0, 0, 0, 0, 0, 0,
  0, 0, 0, 0, 0, 0, 0, 0, 0, 0, 0, 0, 0, 0, 0,
  0, 0, 0, 0, 0, 0, 0, 0, 0, 0, 0, 0, 0, 0, 0,
  0, 0, 0, 0, 0, 0, 0, 0, 0, 0, 0, 0, 0, 0, 0,
  0, 0, 0, 0, 0, 0, 0, 0, 0, 0, 0, 0, 0, 0, 0,
  0, 0, 0, 0, 0, 0, 0, 0, 0, 0, 0, 0, 0, 0, 0,
  0, 0, 0, 0, 0, 0, 0, 0, 0, 0, 0, 0, 0, 0, 0,
  0, 0, 0, 0, 0, 0, 0, 0, 0, 0, 0, 0, 0, 0, 0,
  0, 0, 0, 0, 0, 0, 0, 0, 0, 0, 0, 0, 0, 0, 0,
  0, 0, 0, 0, 0, 0, 0, 0, 0, 0, 0, 0, 0, 0, 0,
  0, 0, 0, 0, 0, 0, 0, 0, 0, 0, 0, 0, 0, 0, 0,
  0, 0, 0, 0, 0, 0, 0, 0, 0, 0, 0, 0, 0, 0, 0,
  0, 0, 0, 0, 0, 0, 0, 0, 0, 0, 0, 0, 0, 0, 0,
  0, 0, 0, 0, 0, 0, 0, 0, 0, 0, 0, 0, 0, 0, 0,
  0, 0, 0, 0, 0, 0, 0, 0, 0, 0, 0, 0, 0, 0, 0,
  0, 0, 0, 0, 0, 0, 0, 0, 0, 0, 0, 0, 0, 0, 0,
  0, 0, 0, 0, 0, 0, 0, 0, 0, 0, 0, 0, 0, 0, 0,
  0, 0, 0, 0, 0, 0, 0, 0, 0, 0, 0, 0, 0, 0, 0,
  0, 0, 0, 0, 0, 0, 0, 0, 0, 0, 0, 0, 0, 0, 0,
  0, 0, 0, 0, 0, 0, 0, 0, 0, 0, 0, 0, 0, 0, 0,
  0, 0, 0, 0, 0, 0, 0, 0, 0, 0, 0, 0, 0, 0, 0,
  0, 0, 0, 0, 0, 0, 0, 0, 0, 0, 0, 0, 0, 0, 0,
  0, 0, 0, 0, 0, 0, 0, 0, 0, 0, 0, 0, 0, 0, 0,
  0, 0, 0, 0, 0, 0, 0, 0, 0, 0, 0, 0, 0, 0, 0,
  0, 0, 0, 0, 0, 0, 0, 0, 0, 0, 0, 0, 0, 0, 0,
  0, 0, 0, 0, 0, 0, 0, 0, 0, 0, 50, 50, 30, 30, 30,
  30, 20, 20, 20, 20, 10, 10, 10, 10, 10, 10, 10, 10, 10, 10,
  80, 50, 50, 50, 50, 30, 20, 30, 30, 30, 10, 10, 10, 10, 10,
  10, 10, 10, 10, 10, 100, 50, 50, 50, 50, 30, 20, 30, 30, 30,
  10, 10, 10, 10, 10, 10, 10, 10, 10, 10, 100, 50, 50, 50, 50,
  30, 30, 30, 30, 30, 20, 10, 10, 10, 10, 10, 10, 10, 10, 10,
  100, 50, 50, 50, 50, 30, 40, 30, 30, 30, 20, 10, 10, 10, 10,
  10, 10, 10, 10, 10, 100, 50, 50, 50, 50, 40, 40, 30, 30, 30,
  30, 10, 10, 10, 10, 10, 10, 10, 10, 10, 100, 50, 50, 50, 50,
  50, 40, 30, 30, 30, 30, 10, 10, 10, 10, 10, 10, 10, 10, 10,
  100, 50, 50, 50, 50, 50, 40, 30, 30, 30, 30, 10, 10, 20, 10,
  10, 10, 10, 10, 10, 100, 50, 50, 50, 50, 50, 40, 30, 30, 30,
  30, 10, 10, 20, 10, 10, 10, 10, 10, 10, 100, 50, 50, 50, 50,
  50, 40, 30, 30, 30, 30, 20, 20, 20, 10, 10, 10, 10, 10, 10,
  100, 100, 100, 100, 90, 50, 40, 30, 30, 30, 30, 30, 20, 20, 20,
  20, 10, 10, 10, 10, 100, 100, 100, 100, 90, 40, 40, 30, 30, 30,
  30, 30, 20, 20, 20, 20, 10, 10, 10, 10, 100, 100, 100, 100, 90,
  50, 40, 30, 30, 30, 30, 30, 20, 20, 20, 20, 10, 10, 10, 10,
  100, 100, 100, 100, 90, 40, 40, 30, 30, 30, 30, 30, 20, 20, 20,
  20, 20, 10, 10, 10, 100, 100, 100, 100, 90, 50, 40, 30, 30, 30,
  30, 30, 20, 20, 20, 20, 20, 10, 10, 10, 100, 100, 100, 100, 90,
  50, 40, 30, 30, 30, 30, 30, 20, 20, 20, 20, 20, 10, 10, 10,
  100, 100, 100, 100, 90, 50, 40, 30, 30, 30, 30, 30, 20, 20, 20,
  20, 20, 10, 10, 10, 100, 100, 100, 100, 90, 40, 50, 30, 30, 30,
  30, 30, 30, 20, 20, 20, 20, 20, 10, 10, 110, 110, 110, 110, 90,
  50, 50, 40, 40, 30, 30, 30, 30, 20, 20, 20, 20, 20, 10, 10,
  150, 150, 150, 140, 120, 50, 50, 50, 50, 30, 30, 30, 30, 20, 20,
  20, 20, 20, 20, 20, 90, 90, 80, 70, 60, 50, 40, 40, 40, 40,
  30, 30, 20, 20, 20, 20, 20, 20, 20, 10, 130, 100, 100, 100, 80,
  60, 60, 50, 50, 40, 30, 30, 20, 20, 20, 20, 20, 20, 20, 20,
  170, 100, 100, 100, 100, 60, 90, 60, 50, 50, 30, 30, 20, 20, 30,
  20, 20, 20, 20, 20, 200, 130, 110, 110, 110, 70, 80, 60, 60, 60,
  30, 30, 20, 20, 30, 30, 30, 30, 30, 20, 200, 130, 110, 110, 110,
  60, 80, 60, 60, 60, 40, 30, 20, 30, 30, 30, 30, 30, 30, 20,
  200, 130, 110, 110, 110, 70, 80, 60, 60, 60, 50, 30, 20, 30, 30,
  30, 30, 30, 30, 20, 200, 130, 110, 110, 110, 80, 80, 60, 60, 60,
  50, 30, 20, 30, 30, 30, 30, 30, 30, 20, 200, 130, 110, 110, 110,
  100, 80, 70, 60, 60, 50, 30, 20, 30, 30, 30, 30, 30, 30, 20,
  200, 130, 110, 110, 110, 100, 80, 70, 60, 60, 50, 40, 30, 40, 30,
  30, 30, 30, 30, 20, 200, 130, 110, 110, 110, 100, 80, 70, 60, 60,
  50, 40, 30, 40, 30, 30, 30, 30, 30, 20, 200, 200, 200, 200, 140,
  100, 80, 70, 60, 60, 50, 50, 40, 40, 40, 30, 30, 30, 20, 20,
  200, 200, 200, 200, 140, 90, 80, 70, 60, 60, 50, 50, 40, 40, 40,
  30, 30, 20, 20, 20, 200, 200, 200, 200, 140, 90, 80, 70, 60, 60,
  50, 60, 40, 40, 40, 40, 30, 30, 20, 20, 200, 200, 200, 200, 140,
  100, 80, 70, 60, 60, 60, 60, 40, 40, 40, 40, 30, 20, 20, 20,
  200, 200, 200, 200, 150, 100, 80, 70, 60, 60, 60, 60, 50, 40, 40,
  40, 30, 20, 20, 20, 200, 200, 200, 200, 140, 90, 80, 70, 60, 60,
  60, 60, 50, 50, 40, 40, 40, 30, 20, 20, 200, 200, 200, 200, 150,
  100, 90, 70, 60, 60, 60, 60, 50, 50, 40, 40, 30, 20, 20, 20,
  220, 220, 220, 220, 150, 100, 90, 70, 70, 60, 60, 60, 60, 50, 50,
  40, 40, 30, 20, 20, 260, 260, 250, 240, 150, 100, 100, 80, 80, 60,
  60, 60, 60, 50, 50, 50, 40, 30, 30, 30, 290, 280, 270, 270, 180,
  100, 100, 100, 90, 70, 60, 60, 60, 50, 50, 50, 40, 30, 30, 30,
  140, 140, 140, 120, 90, 80, 70, 60, 50, 50, 40, 40, 30, 30, 30,
  20, 20, 20, 20, 20, 180, 150, 140, 120, 100, 80, 70, 70, 60, 60,
  40, 40, 30, 30, 30, 30, 30, 30, 30, 20, 210, 150, 150, 150, 120,
  80, 100, 80, 70, 70, 40, 40, 30, 30, 40, 30, 30, 30, 30, 30,
  250, 180, 160, 150, 140, 80, 110, 80, 80, 80, 40, 40, 30, 40, 40,
  40, 40, 40, 40, 30, 290, 220, 160, 180, 160, 100, 130, 80, 90, 90,
  50, 40, 30, 40, 40, 40, 40, 40, 40, 30, 290, 230, 160, 170, 160,
  140, 140, 80, 90, 90, 60, 40, 30, 40, 40, 40, 40, 40, 40, 30,
  300, 230, 160, 160, 160, 130, 130, 90, 90, 90, 70, 40, 30, 50, 40,
  40, 40, 40, 40, 30, 290, 230, 160, 160, 160, 150, 130, 110, 80, 90,
  80, 50, 40, 50, 40, 40, 40, 40, 40, 30, 290, 230, 160, 160, 160,
  150, 120, 110, 90, 90, 80, 60, 50, 50, 50, 40, 40, 40, 40, 30,
  290, 230, 160, 160, 160, 150, 120, 110, 90, 90, 80, 70, 50, 50, 50,
  40, 40, 40, 40, 30, 290, 290, 290, 260, 190, 140, 120, 110, 90, 90,
  80, 70, 60, 60, 50, 50, 40, 40, 40, 40, 290, 290, 290, 260, 190,
  140, 120, 110, 90, 90, 80, 80, 60, 60, 50, 50, 40, 40, 30, 30,
  290, 290, 290, 260, 200, 150, 120, 110, 90, 90, 80, 80, 70, 60, 50,
  50, 40, 40, 30, 30, 290, 290, 300, 260, 190, 140, 120, 110, 90, 90,
  90, 80, 70, 60, 60, 50, 40, 40, 30, 30, 290, 290, 290, 270, 200,
  140, 120, 110, 90, 90, 90, 90, 80, 70, 60, 50, 40, 40, 40, 30,
  300, 300, 300, 270, 200, 140, 130, 110, 100, 90, 90, 90, 80, 70, 60,
  60, 50, 40, 40, 30, 330, 330, 330, 280, 210, 150, 130, 120, 110, 90,
  100, 90, 80, 70, 60, 60, 50, 40, 40, 40, 370, 370, 350, 300, 210,
  160, 140, 120, 120, 100, 100, 90, 90, 70, 70, 70, 50, 40, 40, 40,
  400, 400, 390, 330, 220, 160, 140, 130, 120, 100, 100, 90, 90, 80, 70,
  70, 50, 50, 40, 40, 440, 430, 400, 350, 240, 160, 140, 140, 130, 100,
  90, 90, 90, 80, 80, 70, 60, 50, 40, 40, 180, 190, 190, 140, 120,
  110, 90, 80, 70, 70, 60, 50, 40, 40, 40, 40, 30, 30, 30, 20,
  230, 190, 190, 170, 130, 110, 110, 90, 80, 80, 60, 50, 40, 40, 40,
  40, 40, 30, 30, 30, 260, 200, 200, 190, 160, 110, 120, 90, 90, 80,
  60, 50, 40, 40, 50, 40, 40, 40, 40, 30, 300, 230, 210, 200, 170,
  130, 140, 90, 100, 100, 60, 50, 40, 50, 50, 50, 50, 50, 40, 40,
  330, 260, 210, 230, 200, 150, 160, 100, 110, 100, 70, 50, 40, 50, 50,
  50, 50, 50, 50, 40, 370, 300, 240, 210, 230, 170, 170, 110, 110, 80,
  80, 60, 50, 60, 50, 50, 60, 60, 50, 40, 390, 330, 260, 220, 240,
  190, 180, 120, 110, 110, 90, 70, 50, 60, 60, 60, 60, 60, 50, 50,
  390, 330, 260, 230, 240, 200, 170, 120, 110, 110, 100, 70, 60, 70, 60,
  60, 60, 60, 50, 40, 390, 320, 260, 240, 240, 210, 160, 130, 120, 120,
  100, 80, 70, 70, 60, 60, 60, 60, 50, 40, 390, 330, 280, 260, 250,
  200, 160, 140, 120, 120, 110, 90, 70, 70, 60, 60, 60, 60, 50, 50,
  400, 400, 380, 310, 250, 190, 160, 150, 120, 120, 110, 90, 80, 70, 70,
  70, 60, 50, 50, 40, 390, 400, 390, 310, 250, 200, 160, 150, 120, 120,
  110, 100, 80, 80, 70, 70, 60, 50, 50, 40, 390, 390, 380, 320, 250,
  190, 160, 150, 120, 120, 120, 100, 90, 80, 70, 70, 60, 50, 50, 50,
  400, 390, 390, 320, 250, 190, 160, 150, 120, 120, 120, 110, 90, 80, 80,
  70, 60, 50, 50, 40, 410, 410, 400, 330, 250, 200, 170, 150, 130, 130,
  120, 110, 100, 80, 80, 70, 60, 50, 50, 50, 440, 450, 430, 330, 270,
  200, 170, 160, 140, 130, 130, 120, 100, 90, 80, 80, 60, 60, 50, 50,
  480, 480, 460, 340, 270, 210, 180, 160, 150, 130, 130, 120, 110, 90, 90,
  80, 70, 60, 50, 50, 510, 510, 480, 390, 270, 220, 180, 170, 160, 130,
  130, 120, 110, 100, 90, 80, 70, 60, 50, 50, 540, 540, 500, 420, 300,
  220, 190, 180, 160, 130, 130, 120, 110, 100, 100, 90, 70, 60, 60, 60,
  570, 560, 540, 430, 310, 220, 200, 200, 170, 130, 130, 120, 120, 100, 100,
  90, 70, 60, 60, 60, 240, 240, 210, 180, 150, 130, 120, 100, 90, 80,
  70, 60, 50, 50, 50, 40, 40, 40, 40, 30, 280, 250, 230, 200, 170,
  140, 130, 100, 100, 90, 70, 60, 50, 50, 50, 50, 50, 40, 40, 40,
  310, 250, 240, 220, 190, 160, 140, 110, 110, 100, 70, 60, 50, 50, 60,
  50, 50, 50, 40, 40, 350, 280, 250, 240, 210, 180, 160, 120, 120, 110,
  80, 70, 60, 60, 60, 60, 60, 50, 50, 40, 390, 320, 280, 270, 220,
  200, 170, 130, 130, 120, 90, 70, 60, 60, 70, 60, 60, 60, 50, 50,
  420, 360, 290, 300, 250, 220, 190, 130, 140, 120, 100, 80, 70, 70, 70,
  60, 60, 60, 60, 50, 460, 390, 330, 320, 260, 240, 210, 140, 120, 130,
  100, 90, 70, 80, 70, 70, 70, 70, 60, 50, 500, 430, 360, 380, 300,
  260, 230, 150, 140, 130, 110, 100, 80, 80, 80, 70, 70, 70, 60, 60,
  500, 420, 360, 300, 300, 260, 210, 170, 150, 140, 120, 100, 90, 90, 80,
  70, 70, 70, 60, 60, 490, 440, 360, 380, 300, 250, 210, 180, 150, 140,
  130, 110, 100, 90, 80, 70, 70, 70, 60, 60, 490, 490, 430, 370, 300,
  250, 200, 190, 150, 150, 140, 120, 100, 90, 90, 80, 70, 70, 60, 60,
  500, 490, 440, 370, 300, 250, 200, 190, 150, 150, 140, 120, 110, 100, 90,
  80, 70, 70, 60, 60, 490, 500, 440, 370, 300, 250, 200, 190, 150, 150,
  140, 130, 110, 100, 90, 80, 70, 70, 60, 60, 520, 530, 470, 380, 310,
  250, 210, 200, 170, 160, 150, 130, 120, 100, 100, 90, 80, 70, 60, 60,
  560, 560, 500, 380, 320, 260, 210, 200, 180, 160, 150, 140, 120, 110, 100,
  90, 80, 70, 60, 60, 590, 590, 530, 410, 330, 260, 220, 210, 190, 160,
  160, 140, 130, 110, 100, 90, 80, 70, 60, 60, 620, 610, 560, 430, 350,
  270, 220, 210, 190, 160, 160, 140, 130, 120, 110, 100, 80, 80, 70, 70,
  660, 640, 560, 460, 350, 280, 240, 220, 200, 160, 160, 150, 130, 120, 120,
  100, 90, 80, 70, 70, 670, 670, 580, 470, 360, 280, 240, 240, 200, 160,
  160, 150, 140, 120, 120, 100, 90, 80, 70, 70, 710, 690, 600, 480, 370,
  290, 260, 250, 210, 170, 160, 150, 140, 130, 120, 110, 90, 80, 80, 70,
  290, 280, 240, 210, 180, 160, 140, 120, 100, 100, 80, 70, 70, 60, 60,
  50, 50, 50, 40, 40, 320, 300, 260, 230, 190, 170, 150, 130, 120, 100,
  80, 70, 70, 60, 60, 60, 50, 50, 50, 40, 360, 300, 280, 240, 210,
  190, 170, 130, 120, 110, 90, 80, 70, 60, 60, 60, 60, 60, 50, 50,
  390, 330, 310, 270, 230, 210, 180, 150, 130, 120, 100, 90, 80, 70, 70,
  70, 60, 60, 60, 50, 440, 370, 310, 280, 250, 230, 200, 160, 140, 130,
  110, 100, 80, 80, 80, 70, 70, 60, 60, 50, 470, 410, 340, 310, 270,
  250, 220, 170, 140, 130, 120, 100, 90, 80, 80, 80, 70, 70, 60, 60,
  510, 440, 380, 340, 290, 260, 230, 190, 160, 150, 130, 110, 100, 90, 90,
  80, 80, 70, 70, 60, 550, 480, 410, 360, 310, 280, 240, 190, 160, 160,
  140, 120, 100, 90, 90, 80, 80, 80, 70, 60, 590, 520, 450, 400, 340,
  300, 260, 200, 180, 160, 140, 130, 110, 100, 100, 80, 90, 80, 80, 70,
  600, 530, 460, 430, 360, 300, 260, 220, 190, 170, 150, 130, 120, 100, 100,
  90, 90, 80, 80, 70, 600, 560, 490, 420, 350, 300, 260, 220, 190, 170,
  160, 140, 120, 110, 100, 100, 90, 80, 70, 70, 600, 570, 500, 430, 360,
  300, 260, 230, 190, 180, 160, 140, 130, 120, 100, 100, 90, 80, 70, 70,
  650, 600, 510, 440, 360, 310, 260, 230, 200, 180, 170, 150, 140, 120, 110,
  100, 90, 80, 80, 70, 670, 620, 540, 450, 370, 310, 260, 240, 210, 180,
  170, 160, 140, 130, 110, 110, 90, 90, 80, 70, 700, 670, 560, 500, 380,
  320, 270, 250, 220, 190, 180, 160, 150, 130, 120, 110, 100, 90, 80, 80,
  740, 690, 610, 490, 390, 320, 280, 260, 230, 190, 180, 160, 150, 140, 120,
  110, 100, 90, 80, 80, 750, 720, 630, 510, 410, 330, 290, 260, 230, 190,
  180, 170, 150, 140, 130, 110, 100, 90, 90, 80, 780, 740, 640, 550, 420,
  340, 300, 270, 240, 200, 190, 170, 160, 140, 130, 120, 100, 100, 90, 80,
  820, 770, 660, 550, 430, 340, 300, 290, 240, 200, 190, 180, 160, 150, 140,
  120, 110, 100, 90, 80, 850, 790, 690, 550, 440, 350, 310, 290, 250, 210,
  190, 180, 160, 150, 140, 120, 110, 100, 90, 90, 350, 300, 270, 240, 210,
  180, 160, 140, 120, 110, 100, 90, 80, 70, 70, 60, 60, 50, 50, 50,
  380, 320, 280, 260, 230, 190, 170, 150, 130, 120, 100, 90, 80, 80, 70,
  70, 60, 60, 50, 50, 430, 340, 300, 270, 240, 210, 190, 160, 140, 130,
  110, 100, 90, 80, 80, 70, 70, 60, 60, 50, 470, 380, 330, 300, 260,
  230, 200, 170, 150, 140, 120, 110, 100, 90, 80, 80, 70, 70, 60, 60,
  500, 420, 350, 330, 300, 250, 220, 190, 160, 150, 130, 120, 100, 90, 90,
  80, 80, 70, 70, 60, 540, 460, 390, 340, 310, 260, 240, 200, 170, 160,
  140, 120, 110, 100, 90, 90, 80, 70, 70, 70, 570, 490, 430, 370, 340,
  280, 250, 220, 180, 170, 150, 130, 120, 100, 100, 90, 80, 80, 70, 70,
  600, 530, 470, 420, 360, 300, 260, 220, 200, 180, 160, 140, 120, 110, 100,
  100, 90, 80, 80, 70, 650, 570, 500, 430, 380, 320, 280, 240, 210, 190,
  170, 150, 130, 120, 110, 100, 100, 90, 80, 80, 680, 600, 530, 460, 390,
  340, 300, 250, 220, 200, 180, 160, 140, 120, 120, 110, 100, 90, 80, 80,
  720, 630, 550, 480, 410, 350, 310, 260, 230, 200, 180, 160, 140, 130, 120,
  110, 100, 100, 90, 80, 750, 660, 590, 480, 420, 360, 320, 270, 240, 210,
  180, 170, 150, 130, 120, 110, 100, 100, 90, 80, 780, 690, 600, 500, 420,
  360, 320, 280, 240, 210, 190, 170, 150, 140, 130, 120, 110, 100, 90, 80,
  800, 710, 620, 560, 450, 370, 320, 280, 250, 210, 190, 180, 160, 140, 130,
  120, 110, 100, 90, 90, 840, 750, 660, 560, 460, 370, 330, 300, 260, 220,
  200, 180, 160, 150, 130, 120, 110, 100, 100, 90, 860, 760, 700, 590, 470,
  380, 340, 310, 260, 220, 200, 190, 170, 150, 140, 130, 110, 110, 100, 90,
  900, 800, 690, 600, 480, 390, 340, 310, 270, 230, 200, 190, 180, 160, 140,
  130, 120, 110, 100, 90, 930, 840, 710, 600, 480, 390, 350, 320, 270, 230,
  210, 200, 180, 160, 150, 130, 120, 110, 100, 100, 950, 850, 730, 600, 490,
  400, 360, 320, 280, 240, 220, 200, 180, 170, 150, 140, 120, 110, 110, 100,
  980, 870, 740, 620, 500, 410, 370, 330, 290, 250, 220, 200, 190, 170, 160,
  140, 120, 120, 110, 100, 440, 350, 310, 280, 250, 210, 190, 170, 150, 130,
  110, 100, 90, 80, 80, 70, 70, 60, 60, 60, 490, 370, 330, 300, 270,
  220, 200, 180, 160, 140, 120, 110, 100, 90, 80, 80, 70, 70, 60, 60,
  520, 420, 350, 320, 290, 240, 220, 190, 170, 150, 130, 120, 100, 100, 80,
  80, 80, 70, 70, 60, 560, 450, 380, 360, 300, 260, 230, 200, 180, 160,
  140, 120, 110, 100, 90, 90, 80, 80, 70, 70, 600, 490, 420, 400, 320,
  280, 250, 220, 190, 170, 150, 130, 120, 110, 100, 90, 90, 80, 80, 70,
  630, 520, 460, 400, 360, 290, 260, 230, 200, 180, 160, 140, 120, 120, 100,
  100, 90, 80, 80, 70, 670, 560, 500, 450, 380, 310, 280, 240, 210, 190,
  170, 150, 130, 120, 110, 100, 100, 90, 80, 80, 710, 600, 530, 470, 400,
  330, 290, 250, 220, 200, 180, 150, 140, 130, 110, 110, 100, 90, 90, 80,
  750, 640, 560, 490, 420, 350, 310, 270, 230, 210, 180, 160, 150, 130, 120,
  110, 100, 100, 90, 80, 780, 700, 630, 510, 440, 370, 320, 290, 240, 220,
  190, 170, 150, 140, 120, 120, 110, 100, 100, 90, 830, 730, 620, 530, 460,
  400, 350, 300, 250, 220, 200, 180, 160, 140, 130, 120, 110, 100, 100, 90,
  850, 700, 630, 550, 480, 400, 350, 310, 260, 220, 200, 180, 160, 140, 130,
  120, 120, 110, 100, 90, 870, 710, 650, 570, 480, 400, 360, 320, 270, 230,
  210, 190, 160, 140, 130, 120, 120, 110, 100, 90, 900, 750, 680, 590, 510,
  410, 370, 330, 280, 230, 210, 190, 160, 150, 140, 130, 120, 110, 100, 100,
  940, 770, 700, 620, 510, 410, 370, 330, 280, 240, 220, 200, 170, 150, 140,
  130, 120, 110, 110, 100, 960, 800, 720, 640, 530, 420, 380, 340, 290, 240,
  220, 200, 170, 160, 140, 130, 120, 120, 110, 100, 990, 830, 750, 650, 540,
  420, 380, 350, 290, 250, 220, 210, 180, 160, 150, 130, 130, 120, 110, 100,
  1020, 870, 770, 670, 540, 430, 390, 360, 300, 250, 230, 210, 180, 170, 150,
  140, 130, 120, 110, 100, 1050, 890, 790, 670, 550, 440, 390, 360, 300, 260,
  230, 220, 190, 170, 160, 140, 130, 120, 120, 100, 1060, 930, 810, 680, 560,
  440, 400, 350, 310, 270, 240, 220, 190, 180, 160, 140, 130, 120, 120, 110,
  540, 440, 360, 340, 290, 250, 220, 190, 170, 160, 130, 120, 110, 100, 90,
  80, 80, 80, 70, 60, 580, 470, 380, 340, 310, 260, 230, 210, 180, 170,
  140, 130, 120, 110, 100, 90, 80, 80, 80, 70, 620, 500, 410, 370, 340,
  280, 250, 220, 190, 170, 150, 130, 120, 110, 100, 90, 90, 80, 80, 70,
  660, 550, 440, 390, 370, 300, 260, 230, 200, 180, 160, 140, 130, 120, 100,
  100, 90, 90, 80, 80, 700, 580, 490, 420, 390, 320, 280, 250, 220, 190,
  170, 150, 130, 120, 110, 100, 100, 90, 90, 80, 730, 620, 520, 460, 410,
  330, 290, 260, 220, 200, 180, 150, 140, 130, 110, 110, 100, 100, 90, 80,
  770, 650, 560, 490, 430, 350, 310, 270, 230, 210, 180, 160, 150, 140, 120,
  110, 100, 100, 100, 80, 820, 700, 580, 540, 450, 370, 320, 280, 250, 220,
  190, 170, 150, 140, 120, 120, 110, 100, 100, 90, 860, 760, 670, 540, 470,
  390, 340, 300, 260, 220, 200, 180, 160, 150, 130, 120, 120, 110, 100, 90,
  900, 820, 740, 660, 490, 410, 360, 310, 270, 230, 210, 180, 170, 160, 140,
  130, 120, 110, 100, 100, 930, 830, 740, 650, 510, 440, 400, 320, 280, 240,
  220, 190, 170, 160, 140, 140, 120, 110, 100, 100, 970, 810, 720, 620, 530,
  440, 400, 340, 290, 240, 220, 200, 170, 150, 140, 140, 120, 120, 110, 100,
  990, 810, 710, 640, 540, 440, 400, 350, 300, 250, 230, 200, 170, 150, 140,
  130, 130, 120, 110, 100, 1020, 840, 710, 630, 550, 450, 400, 360, 300, 250,
  230, 210, 170, 150, 140, 130, 130, 120, 110, 100, 1020, 860, 730, 660, 570,
  460, 410, 370, 310, 250, 230, 210, 170, 160, 150, 140, 130, 120, 110, 110,
  1050, 910, 770, 690, 590, 460, 410, 380, 310, 260, 240, 220, 180, 160, 150,
  140, 130, 120, 120, 110, 1090, 930, 790, 720, 600, 470, 420, 390, 320, 270,
  240, 220, 180, 170, 150, 140, 140, 130, 120, 110, 1120, 950, 820, 730, 600,
  480, 420, 400, 320, 270, 250, 230, 190, 170, 160, 140, 140, 130, 120, 110,
  1130, 980, 860, 740, 610, 490, 430, 390, 320, 280, 250, 230, 190, 180, 160,
  150, 140, 130, 120, 110, 1160, 990, 870, 740, 620, 500, 440, 400, 330, 290,
  260, 240, 200, 180, 160, 150, 140, 130, 130, 110, 640, 530, 460, 420, 380,
  290, 250, 230, 200, 180, 150, 140, 130, 110, 100, 90, 90, 90, 80, 70,
  680, 570, 470, 390, 400, 300, 260, 240, 210, 190, 160, 140, 130, 120, 110,
  100, 90, 90, 80, 80, 720, 600, 500, 420, 390, 320, 280, 250, 220, 190,
  170, 150, 140, 130, 110, 100, 100, 90, 90, 80, 760, 650, 530, 450, 410,
  340, 290, 260, 230, 200, 180, 160, 140, 130, 120, 110, 100, 100, 90, 80,
  800, 680, 560, 490, 430, 360, 300, 280, 240, 210, 190, 160, 150, 140, 120,
  120, 110, 100, 100, 90, 840, 720, 600, 520, 450, 380, 320, 290, 250, 220,
  200, 170, 160, 150, 130, 120, 110, 100, 100, 90, 880, 760, 660, 570, 470,
  390, 330, 300, 260, 230, 200, 180, 160, 150, 130, 120, 120, 110, 100, 90,
  920, 800, 710, 570, 500, 420, 350, 320, 270, 240, 210, 190, 170, 160, 140,
  130, 120, 110, 110, 100, 960, 860, 770, 580, 540, 430, 370, 340, 290, 240,
  220, 190, 180, 160, 140, 130, 120, 120, 110, 100, 1010, 920, 780, 700, 540,
  460, 390, 340, 300, 250, 230, 200, 180, 170, 150, 140, 130, 120, 110, 100,
  1030, 940, 840, 680, 580, 480, 430, 360, 310, 260, 240, 210, 190, 170, 160,
  150, 130, 120, 110, 110, 1060, 920, 840, 740, 570, 490, 440, 370, 320, 260,
  240, 210, 180, 170, 160, 150, 140, 120, 120, 110, 1080, 920, 820, 740, 600,
  490, 440, 380, 330, 260, 250, 220, 180, 170, 160, 150, 140, 130, 120, 110,
  1100, 950, 810, 720, 610, 500, 450, 390, 330, 270, 250, 220, 180, 160, 150,
  140, 140, 130, 120, 110, 1120, 970, 800, 700, 630, 510, 450, 410, 340, 270,
  250, 230, 180, 160, 150, 140, 140, 130, 120, 120, 1150, 990, 840, 740, 640,
  520, 450, 420, 340, 270, 260, 230, 190, 170, 160, 150, 140, 130, 130, 120,
  1180, 1030, 860, 750, 660, 530, 460, 430, 340, 280, 260, 240, 200, 170, 160,
  150, 140, 140, 130, 120, 1210, 1050, 900, 780, 660, 530, 470, 430, 340, 290,
  260, 240, 200, 180, 160, 150, 150, 140, 130, 120, 1210, 1080, 920, 800, 670,
  550, 470, 440, 350, 300, 270, 250, 200, 180, 170, 160, 150, 140, 130, 120,
  1260, 1110, 940, 800, 680, 560, 470, 430, 350, 310, 280, 250, 210, 190, 170,
  160, 150, 140, 130, 120, 740, 630, 520, 500, 420, 330, 280, 250, 220, 200,
  170, 150, 140, 130, 120, 100, 100, 100, 90, 80, 780, 670, 560, 450, 400,
  340, 290, 270, 240, 210, 180, 160, 150, 130, 120, 110, 100, 100, 90, 80,
  820, 710, 600, 480, 440, 360, 310, 280, 250, 220, 190, 160, 160, 140, 120,
  110, 110, 100, 100, 90, 860, 740, 630, 520, 450, 380, 320, 290, 250, 220,
  200, 170, 160, 150, 130, 120, 110, 110, 100, 90, 900, 790, 650, 550, 480,
  400, 330, 310, 270, 230, 210, 180, 160, 150, 140, 120, 120, 110, 100, 100,
  940, 820, 700, 550, 500, 420, 350, 320, 280, 240, 220, 190, 170, 160, 140,
  130, 120, 120, 110, 100, 990, 860, 750, 610, 520, 430, 360, 340, 290, 250,
  230, 200, 180, 170, 150, 130, 130, 120, 110, 100, 1020, 920, 800, 700, 540,
  460, 390, 350, 300, 260, 230, 200, 180, 170, 150, 140, 130, 120, 120, 100,
  1080, 950, 870, 730, 580, 470, 400, 360, 310, 260, 240, 210, 190, 180, 160,
  140, 130, 130, 120, 110, 1110, 1010, 900, 750, 600, 500, 420, 380, 320, 270,
  250, 220, 200, 180, 160, 150, 140, 130, 120, 110, 1150, 1040, 920, 770, 620,
  530, 460, 390, 340, 280, 260, 220, 200, 180, 170, 160, 140, 130, 120, 110,
  1150, 1030, 920, 790, 640, 540, 470, 400, 350, 280, 260, 230, 200, 180, 170,
  160, 140, 130, 120, 120, 1190, 1030, 930, 800, 640, 540, 480, 410, 360, 280,
  260, 230, 200, 180, 170, 160, 150, 140, 130, 120, 1200, 1050, 900, 810, 650,
  550, 490, 420, 360, 290, 270, 240, 200, 180, 170, 160, 150, 140, 130, 120,
  1240, 1070, 940, 800, 670, 560, 500, 430, 370, 290, 270, 240, 200, 180, 170,
  160, 150, 140, 130, 120, 1250, 1090, 930, 780, 690, 560, 500, 440, 370, 300,
  270, 250, 200, 180, 160, 160, 150, 140, 130, 120, 1260, 1120, 980, 800, 700,
  580, 500, 460, 370, 300, 270, 250, 210, 180, 170, 160, 150, 140, 140, 120,
  1310, 1140, 1000, 820, 720, 590, 520, 470, 370, 310, 280, 260, 220, 190, 170,
  160, 160, 150, 140, 130, 1330, 1180, 990, 840, 730, 600, 520, 470, 370, 320,
  290, 260, 220, 190, 170, 160, 160, 150, 140, 130, 1370, 1190, 1030, 860, 740,
  620, 520, 470, 380, 330, 290, 270, 220, 200, 170, 160, 160, 150, 140, 130,
  840, 730, 630, 570, 460, 370, 320, 280, 250, 220, 190, 170, 160, 140, 130,
  120, 110, 110, 100, 90, 880, 770, 660, 550, 480, 390, 330, 300, 260, 230,
  200, 180, 160, 150, 130, 120, 110, 110, 100, 90, 920, 810, 700, 580, 490,
  400, 340, 310, 270, 240, 210, 190, 170, 150, 140, 130, 120, 110, 110, 100,
  970, 850, 730, 620, 530, 420, 360, 320, 280, 240, 220, 190, 180, 160, 140,
  130, 120, 120, 110, 100, 1010, 900, 750, 630, 520, 440, 370, 340, 290, 250,
  230, 200, 180, 170, 150, 140, 130, 120, 110, 100, 1050, 930, 810, 710, 570,
  460, 390, 350, 300, 260, 240, 200, 190, 170, 160, 140, 130, 130, 120, 110,
  1100, 980, 830, 730, 590, 480, 400, 360, 310, 270, 240, 210, 200, 180, 160,
  150, 140, 130, 120, 110, 1120, 1000, 900, 750, 610, 490, 420, 380, 330, 280,
  250, 220, 200, 190, 170, 150, 140, 130, 120, 110, 1180, 1060, 920, 770, 620,
  510, 440, 390, 340, 290, 260, 230, 210, 190, 170, 160, 150, 140, 130, 120,
  1190, 1110, 940, 790, 640, 530, 460, 400, 350, 300, 270, 230, 220, 200, 180,
  160, 150, 140, 130, 120, 1240, 1120, 960, 820, 670, 570, 490, 420, 360, 310,
  270, 240, 220, 200, 180, 170, 150, 140, 130, 120, 1260, 1130, 980, 830, 680,
  570, 500, 430, 380, 310, 280, 240, 210, 200, 180, 170, 160, 140, 130, 120,
  1280, 1120, 1000, 850, 700, 580, 510, 440, 380, 310, 280, 250, 210, 190, 180,
  170, 160, 150, 140, 130, 1290, 1150, 1010, 870, 720, 590, 530, 450, 390, 320,
  280, 250, 210, 190, 180, 170, 160, 150, 140, 130, 1330, 1160, 1010, 880, 720,
  610, 530, 460, 390, 320, 290, 260, 210, 190, 180, 170, 160, 150, 140, 130,
  1330, 1190, 1030, 890, 740, 620, 540, 480, 390, 330, 290, 260, 220, 190, 180,
  170, 160, 150, 140, 130, 1350, 1220, 1070, 900, 750, 640, 550, 490, 400, 320,
  290, 270, 220, 200, 180, 170, 160, 150, 140, 130, 1390, 1250, 1090, 920, 760,
  650, 560, 500, 400, 330, 300, 270, 230, 200, 180, 170, 170, 160, 140, 140,
  1420, 1250, 1110, 930, 790, 660, 560, 500, 400, 340, 300, 280, 240, 200, 190,
  170, 170, 160, 150, 140, 1440, 1290, 1120, 960, 800, 680, 570, 510, 400, 340,
  310, 280, 240, 200, 190, 180, 170, 160, 150, 140, 940, 830, 720, 610, 500,
  410, 360, 310, 270, 240, 210, 180, 170, 150, 140, 130, 120, 110, 110, 100,
  980, 870, 750, 640, 530, 430, 370, 320, 280, 250, 220, 190, 180, 160, 150,
  140, 130, 120, 110, 100, 1030, 920, 800, 660, 550, 440, 390, 340, 300, 260,
  230, 200, 180, 170, 150, 140, 130, 120, 120, 100, 1080, 960, 820, 680, 580,
  460, 400, 350, 310, 270, 240, 210, 190, 180, 160, 140, 130, 130, 120, 110,
  1120, 990, 850, 740, 590, 480, 420, 360, 320, 270, 240, 210, 200, 180, 160,
  150, 140, 130, 120, 110, 1160, 1010, 900, 760, 620, 500, 430, 380, 330, 280,
  250, 220, 200, 190, 170, 150, 140, 130, 130, 120, 1210, 1050, 930, 780, 630,
  520, 440, 390, 340, 290, 260, 230, 210, 190, 180, 160, 150, 140, 130, 120,
  1250, 1110, 940, 800, 660, 530, 460, 400, 350, 300, 270, 230, 220, 200, 180,
  160, 150, 140, 130, 120, 1260, 1140, 960, 820, 670, 550, 480, 420, 360, 310,
  280, 240, 220, 210, 190, 170, 160, 150, 140, 120, 1300, 1140, 980, 840, 690,
  570, 500, 430, 370, 330, 280, 250, 230, 210, 190, 180, 160, 150, 140, 120,
  1320, 1170, 1000, 850, 710, 610, 520, 440, 390, 330, 290, 250, 230, 210, 200,
  180, 160, 150, 140, 130, 1360, 1180, 1020, 880, 730, 600, 530, 460, 400, 340,
  290, 260, 230, 210, 190, 180, 160, 150, 140, 130, 1390, 1220, 1060, 900, 740,
  630, 540, 470, 410, 340, 300, 260, 230, 210, 190, 180, 170, 160, 140, 130,
  1390, 1260, 1100, 920, 760, 640, 550, 480, 410, 340, 300, 270, 230, 210, 190,
  180, 170, 160, 150, 140, 1440, 1270, 1120, 950, 780, 660, 570, 480, 420, 350,
  300, 270, 230, 210, 190, 180, 170, 160, 150, 140, 1460, 1270, 1140, 970, 800,
  680, 580, 500, 420, 350, 310, 280, 230, 220, 190, 180, 170, 160, 150, 140,
  1460, 1320, 1150, 990, 820, 690, 590, 500, 420, 350, 310, 280, 240, 210, 190,
  180, 170, 160, 150, 140, 1500, 1360, 1170, 1010, 840, 710, 600, 520, 430, 360,
  320, 290, 250, 210, 200, 180, 180, 160, 150, 140, 1490, 1360, 1210, 1030, 860,
  720, 610, 530, 430, 360, 320, 290, 250, 220, 190, 180, 180, 170, 150, 140,
  1530, 1380, 1230, 1050, 880, 740, 630, 540, 440, 360, 320, 300, 260, 220, 190,
  180, 180, 170, 160, 150, 1170, 1060, 950, 750, 610, 520, 470, 380, 340, 290,
  260, 220, 200, 180, 160, 150, 140, 140, 130, 120, 1220, 1110, 1000, 860, 630,
  540, 480, 370, 330, 290, 250, 220, 200, 180, 170, 160, 140, 130, 120, 120,
  1260, 1150, 1040, 850, 680, 550, 500, 370, 330, 290, 250, 230, 200, 180, 170,
  160, 140, 140, 130, 120, 1310, 1200, 1080, 910, 730, 570, 510, 380, 340, 300,
  260, 230, 200, 190, 180, 170, 150, 140, 130, 120, 1360, 1230, 1120, 920, 750,
  590, 520, 400, 350, 310, 270, 240, 210, 200, 180, 170, 150, 140, 130, 130,
  1400, 1270, 1110, 940, 770, 610, 540, 410, 360, 320, 280, 240, 220, 200, 190,
  180, 160, 140, 140, 130, 1440, 1300, 1120, 970, 780, 630, 550, 420, 370, 330,
  290, 250, 230, 210, 200, 180, 160, 150, 140, 130, 1470, 1290, 1140, 980, 810,
  640, 570, 440, 380, 340, 290, 260, 230, 210, 200, 180, 170, 150, 140, 130,
  1500, 1310, 1150, 990, 830, 660, 560, 450, 400, 350, 300, 270, 240, 220, 200,
  190, 170, 160, 140, 130, 1520, 1320, 1160, 1010, 860, 660, 540, 460, 410, 360,
  310, 270, 240, 230, 210, 200, 180, 160, 150, 140, 1520, 1310, 1130, 980, 830,
  650, 560, 480, 420, 360, 320, 280, 250, 230, 210, 200, 180, 160, 150, 140,
  1510, 1250, 1080, 930, 780, 660, 580, 470, 420, 360, 310, 280, 260, 240, 220,
  200, 180, 170, 160, 140, 1520, 1290, 1110, 950, 800, 700, 590, 480, 430, 370,
  320, 280, 260, 240, 220, 200, 180, 170, 160, 140, 1560, 1310, 1120, 970, 820,
  710, 600, 500, 440, 370, 320, 280, 260, 240, 220, 200, 180, 170, 160, 150,
  1580, 1290, 1140, 990, 840, 730, 610, 510, 450, 380, 320, 290, 270, 240, 220,
  200, 180, 170, 160, 150, 1590, 1340, 1190, 1020, 850, 740, 620, 520, 450, 380,
  330, 290, 270, 240, 220, 210, 190, 180, 160, 150, 1600, 1360, 1200, 1030, 870,
  760, 650, 540, 450, 380, 330, 300, 280, 240, 220, 210, 190, 180, 170, 150,
  1620, 1370, 1220, 1050, 890, 770, 670, 550, 460, 390, 330, 310, 280, 240, 220,
  210, 190, 180, 170, 150, 1630, 1390, 1220, 1060, 900, 780, 670, 550, 460, 390,
  330, 310, 280, 240, 220, 210, 190, 180, 170, 150, 1660, 1420, 1250, 1080, 920,
  780, 670, 570, 470, 390, 340, 310, 280, 240, 220, 210, 190, 180, 170, 160,
  1440, 1330, 1220, 880, 740, 650, 590, 470, 410, 340, 310, 270, 230, 220, 190,
  180, 170, 160, 150, 130, 1480, 1380, 1260, 1110, 760, 660, 600, 450, 410, 340,
  300, 260, 240, 210, 190, 180, 170, 160, 150, 140, 1530, 1420, 1280, 1110, 820,
  680, 620, 430, 390, 340, 290, 260, 230, 210, 190, 180, 160, 160, 150, 140,
  1570, 1460, 1320, 1100, 800, 690, 630, 420, 380, 340, 290, 260, 230, 210, 200,
  180, 160, 150, 140, 140, 1620, 1500, 1320, 1120, 830, 710, 650, 440, 390, 350,
  300, 260, 230, 210, 200, 190, 170, 160, 150, 150, 1660, 1530, 1310, 1140, 850,
  730, 660, 450, 400, 360, 300, 270, 240, 220, 210, 190, 170, 160, 150, 150,
  1720, 1510, 1320, 1160, 880, 750, 630, 470, 410, 370, 310, 280, 240, 230, 210,
  200, 180, 160, 160, 150, 1730, 1510, 1330, 1170, 890, 760, 640, 480, 420, 380,
  320, 280, 250, 230, 220, 200, 180, 160, 160, 140, 1710, 1500, 1340, 1190, 910,
  740, 650, 490, 430, 380, 330, 290, 260, 240, 220, 210, 180, 170, 160, 150,
  1700, 1510, 1350, 1200, 930, 740, 620, 510, 440, 390, 340, 300, 260, 250, 230,
  210, 190, 170, 160, 150, 1690, 1490, 1330, 1170, 930, 710, 610, 530, 470, 390,
  340, 300, 270, 250, 230, 220, 190, 180, 160, 150, 1700, 1440, 1270, 1110, 930,
  750, 630, 520, 460, 400, 340, 300, 270, 260, 230, 220, 190, 180, 170, 150,
  1710, 1410, 1200, 1050, 890, 770, 630, 520, 450, 400, 340, 300, 280, 260, 240,
  220, 190, 180, 170, 150, 1710, 1410, 1180, 1010, 870, 780, 640, 530, 460, 400,
  340, 300, 280, 260, 240, 220, 190, 180, 170, 150, 1730, 1430, 1240, 1040, 890,
  800, 670, 550, 470, 400, 340, 310, 290, 260, 240, 220, 190, 190, 180, 160,
  1740, 1450, 1220, 1060, 920, 810, 700, 560, 480, 410, 350, 310, 290, 260, 240,
  220, 200, 190, 180, 160, 1770, 1460, 1240, 1080, 920, 830, 730, 560, 480, 410,
  350, 320, 300, 260, 240, 220, 200, 190, 180, 160, 1780, 1480, 1280, 1100, 940,
  830, 720, 570, 490, 420, 350, 320, 300, 260, 240, 220, 200, 190, 180, 160,
  1790, 1490, 1300, 1110, 950, 830, 710, 590, 490, 420, 350, 320, 300, 260, 240,
  220, 200, 190, 180, 160, 1810, 1540, 1320, 1120, 970, 830, 710, 600, 490, 420,
  360, 330, 300, 260, 240, 220, 200, 190, 180, 160, 1700, 1590, 1430, 1230, 900,
  770, 670, 550, 480, 390, 360, 310, 270, 250, 220, 200, 190, 180, 170, 150,
  1750, 1640, 1510, 1250, 950, 790, 690, 540, 470, 390, 350, 310, 260, 240, 220,
  200, 190, 180, 170, 160, 1810, 1700, 1520, 1250, 940, 800, 700, 520, 460, 390,
  350, 310, 270, 240, 220, 210, 190, 180, 170, 160, 1850, 1720, 1510, 1240, 930,
  820, 720, 510, 460, 400, 340, 300, 260, 240, 220, 210, 190, 180, 160, 160,
  1890, 1730, 1500, 1260, 920, 840, 730, 500, 440, 400, 350, 300, 260, 240, 220,
  210, 180, 180, 170, 160, 1930, 1720, 1490, 1230, 920, 850, 720, 500, 430, 400,
  360, 300, 270, 240, 220, 210, 180, 180, 170, 160, 1920, 1690, 1500, 1250, 940,
  840, 730, 520, 440, 410, 360, 320, 270, 250, 230, 210, 190, 180, 170, 160,
  1910, 1690, 1520, 1260, 960, 830, 720, 530, 460, 420, 370, 310, 280, 250, 240,
  220, 200, 180, 170, 160, 1900, 1690, 1530, 1290, 990, 820, 710, 540, 480, 420,
  380, 320, 290, 260, 240, 220, 200, 180, 170, 160, 1890, 1710, 1550, 1310, 1010,
  820, 700, 560, 480, 430, 370, 330, 290, 260, 240, 230, 200, 190, 180, 160,
  1870, 1670, 1520, 1310, 1000, 790, 660, 570, 500, 420, 380, 330, 290, 270, 250,
  230, 200, 190, 180, 160, 1890, 1610, 1450, 1270, 1010, 820, 660, 570, 500, 430,
  370, 330, 300, 270, 250, 230, 200, 190, 180, 160, 1900, 1580, 1390, 1230, 1000,
  840, 690, 570, 500, 430, 370, 330, 300, 270, 250, 230, 200, 200, 180, 160,
  1900, 1590, 1330, 1160, 1010, 850, 720, 580, 500, 430, 370, 330, 300, 270, 250,
  230, 200, 200, 180, 160, 1900, 1600, 1280, 1100, 930, 870, 740, 600, 490, 440,
  370, 330, 310, 280, 250, 240, 210, 200, 190, 160, 1920, 1610, 1320, 1160, 940,
  870, 750, 610, 510, 440, 380, 330, 310, 280, 260, 240, 210, 200, 190, 160,
  1930, 1630, 1320, 1110, 970, 870, 750, 600, 510, 440, 380, 330, 310, 280, 250,
  240, 210, 200, 190, 160, 1930, 1630, 1350, 1140, 980, 870, 750, 630, 520, 440,
  380, 340, 320, 280, 250, 230, 210, 200, 190, 160, 1940, 1650, 1350, 1250, 1000,
  870, 750, 630, 520, 450, 380, 340, 320, 280, 250, 230, 210, 200, 190, 170,
  1960, 1670, 1380, 1290, 1020, 870, 730, 630, 520, 450, 380, 350, 320, 280, 250,
  230, 210, 200, 190, 170, 1970, 1860, 1670, 1370, 1060, 900, 760, 640, 540, 450,
  420, 360, 310, 280, 250, 240, 220, 200, 190, 170, 2030, 1920, 1680, 1360, 1070,
  910, 770, 620, 540, 440, 410, 350, 310, 280, 250, 230, 210, 200, 190, 170,
  2080, 1930, 1670, 1370, 1060, 930, 790, 600, 530, 440, 400, 350, 310, 270, 250,
  230, 210, 200, 180, 180, 2130, 1910, 1670, 1360, 1080, 940, 800, 590, 520, 450,
  390, 350, 310, 270, 250, 240, 210, 200, 180, 180, 2130, 1910, 1660, 1350, 1040,
  940, 800, 580, 520, 450, 400, 350, 300, 280, 250, 230, 210, 200, 180, 180,
  2120, 1890, 1640, 1340, 1030, 930, 790, 580, 510, 460, 410, 340, 310, 270, 250,
  230, 210, 200, 190, 180, 2110, 1870, 1630, 1330, 1020, 920, 770, 570, 500, 460,
  420, 340, 310, 280, 250, 230, 210, 200, 190, 180, 2100, 1880, 1650, 1340, 1040,
  910, 770, 580, 540, 470, 410, 340, 320, 280, 260, 240, 220, 200, 190, 180,
  2080, 1850, 1660, 1360, 1060, 900, 760, 590, 510, 470, 410, 350, 320, 290, 260,
  240, 220, 200, 190, 170, 2060, 1900, 1680, 1380, 1080, 890, 740, 600, 520, 470,
  400, 360, 310, 280, 260, 240, 220, 200, 190, 170, 2060, 1870, 1690, 1390, 1090,
  870, 700, 620, 540, 460, 410, 360, 310, 290, 270, 240, 220, 200, 190, 170,
  2070, 1800, 1620, 1390, 1090, 890, 730, 620, 540, 460, 400, 350, 310, 290, 270,
  240, 220, 210, 190, 170, 2080, 1770, 1580, 1370, 1080, 910, 760, 620, 540, 460,
  400, 350, 330, 290, 270, 240, 220, 210, 190, 170, 2070, 1770, 1510, 1350, 1090,
  920, 780, 630, 540, 460, 400, 350, 330, 290, 260, 240, 220, 210, 190, 170,
  2100, 1770, 1460, 1280, 1080, 920, 780, 640, 540, 470, 410, 350, 330, 290, 270,
  250, 220, 210, 190, 170, 2090, 1780, 1480, 1300, 1070, 920, 780, 660, 540, 470,
  410, 350, 330, 290, 270, 250, 220, 210, 190, 170, 2110, 1790, 1490, 1200, 1090,
  920, 780, 660, 540, 470, 410, 350, 330, 290, 260, 250, 220, 210, 190, 170,
  2110, 1810, 1500, 1260, 1100, 920, 780, 660, 550, 470, 410, 350, 330, 300, 260,
  240, 220, 210, 200, 170, 2110, 1800, 1510, 1290, 1120, 920, 780, 660, 550, 470,
  410, 360, 330, 300, 270, 240, 220, 210, 190, 170, 2100, 1810, 1530, 1370, 1120,
  920, 780, 660, 550, 470, 410, 360, 330, 300, 270, 240, 220, 210, 190, 180,
  2240, 2100, 1790, 1500, 1200, 1010, 840, 720, 600, 510, 460, 400, 350, 310, 290,
  260, 240, 220, 210, 190, 2310, 2100, 1800, 1490, 1200, 1020, 860, 700, 600, 510,
  460, 400, 350, 310, 280, 260, 240, 220, 200, 190, 2330, 2080, 1800, 1480, 1190,
  1030, 860, 680, 590, 500, 450, 390, 350, 310, 280, 260, 230, 220, 200, 190,
  2320, 2080, 1790, 1470, 1170, 1020, 850, 680, 590, 500, 440, 390, 340, 310, 280,
  260, 230, 220, 200, 190, 2310, 2080, 1780, 1470, 1170, 1010, 840, 670, 580, 500,
  450, 390, 340, 300, 280, 260, 230, 220, 200, 190, 2290, 2050, 1760, 1460, 1160,
  1000, 830, 660, 570, 500, 450, 380, 350, 300, 280, 260, 230, 220, 200, 190,
  2290, 2040, 1750, 1450, 1140, 980, 820, 650, 570, 500, 450, 390, 350, 310, 280,
  250, 230, 210, 200, 190, 2280, 2010, 1740, 1440, 1130, 970, 820, 650, 570, 510,
  440, 390, 350, 300, 280, 250, 230, 220, 200, 180, 2260, 2000, 1720, 1430, 1130,
  960, 810, 640, 570, 500, 440, 390, 340, 310, 280, 250, 230, 220, 200, 180,
  2260, 2010, 1760, 1450, 1150, 950, 800, 650, 580, 500, 440, 380, 340, 310, 280,
  250, 230, 220, 200, 180, 2220, 2020, 1760, 1470, 1160, 940, 780, 670, 570, 490,
  440, 380, 340, 310, 280, 260, 230, 220, 200, 180, 2230, 1960, 1730, 1440, 1160,
  960, 810, 670, 570, 490, 440, 380, 340, 310, 280, 260, 230, 220, 200, 180,
  2260, 1950, 1720, 1440, 1160, 960, 810, 670, 570, 490, 430, 380, 350, 310, 280,
  260, 230, 220, 200, 180, 2260, 1960, 1690, 1440, 1160, 960, 810, 680, 570, 490,
  430, 380, 350, 310, 280, 260, 230, 220, 200, 180, 2240, 1940, 1660, 1440, 1160,
  960, 810, 680, 570, 500, 430, 380, 350, 310, 280, 260, 230, 220, 200, 180,
  2290, 1950, 1660, 1430, 1160, 960, 810, 680, 570, 500, 440, 380, 350, 310, 280,
  260, 230, 220, 200, 180, 2280, 1970, 1680, 1430, 1160, 960, 810, 680, 570, 500,
  440, 380, 350, 310, 280, 260, 230, 220, 200, 180, 2290, 1970, 1670, 1370, 1170,
  960, 810, 680, 580, 500, 440, 380, 350, 310, 280, 260, 230, 220, 200, 180,
  2250, 1980, 1700, 1460, 1170, 960, 810, 680, 580, 500, 440, 380, 350, 310, 280,
  260, 230, 220, 200, 180, 2260, 1980, 1690, 1420, 1170, 960, 810, 680, 580, 500,
  440, 380, 350, 310, 280, 260, 230, 220, 200, 180, 2520, 2200, 1920, 1620, 1330,
  1100, 930, 780, 670, 570, 500, 440, 390, 350, 320, 290, 260, 240, 220, 210,
  2520, 2210, 1910, 1610, 1320, 1080, 920, 780, 660, 570, 500, 440, 390, 350, 320,
  290, 260, 240, 220, 200, 2520, 2220, 1900, 1610, 1310, 1070, 910, 770, 660, 560,
  500, 430, 390, 340, 310, 280, 260, 240, 220, 200, 2500, 2210, 1910, 1600, 1300,
  1060, 900, 760, 650, 560, 490, 430, 390, 340, 310, 280, 260, 240, 220, 200,
  2480, 2200, 1900, 1600, 1290, 1050, 890, 750, 640, 550, 490, 430, 380, 340, 310,
  280, 250, 240, 220, 200, 2470, 2170, 1890, 1590, 1270, 1040, 880, 750, 640, 550,
  480, 420, 380, 340, 300, 280, 250, 230, 220, 200, 2460, 2150, 1870, 1580, 1270,
  1030, 870, 740, 630, 540, 480, 420, 380, 330, 300, 280, 250, 230, 210, 200,
  2450, 2150, 1860, 1560, 1260, 1020, 860, 730, 620, 540, 470, 420, 370, 330, 300,
  270, 250, 230, 210, 200, 2420, 2130, 1840, 1550, 1250, 1010, 860, 720, 620, 530,
  470, 410, 370, 330, 300, 270, 250, 230, 210, 190, 2390, 2130, 1840, 1540, 1240,
  1000, 850, 710, 610, 530, 460, 410, 370, 320, 300, 270, 240, 230, 210, 190,
  2400, 2120, 1840, 1520, 1230, 1000, 840, 710, 610, 530, 460, 410, 360, 320, 300,
  270, 240, 230, 210, 190, 2400, 2100, 1820, 1520, 1230, 990, 840, 710, 610, 530,
  460, 410, 360, 320, 300, 270, 240, 230, 210, 190, 2420, 2080, 1790, 1520, 1230,
  990, 840, 710, 610, 520, 460, 410, 360, 320, 300, 270, 240, 230, 210, 190,
  2450, 2100, 1800, 1510, 1230, 990, 840, 710, 610, 530, 460, 410, 360, 320, 300,
  270, 240, 230, 210, 190, 2430, 2110, 1790, 1510, 1230, 990, 840, 710, 610, 530,
  460, 410, 360, 320, 300, 270, 240, 230, 210, 190, 2420, 2120, 1790, 1510, 1230,
  990, 840, 710, 610, 530, 460, 410, 360, 320, 300, 270, 240, 230, 210, 190,
  2440, 2100, 1800, 1510, 1220, 990, 840, 710, 610, 530, 460, 410, 360, 320, 300,
  270, 240, 230, 210, 190, 2430, 2120, 1800, 1510, 1220, 990, 840, 710, 610, 530,
  460, 410, 360, 320, 300, 270, 240, 230, 210, 190, 2460, 2140, 1800, 1510, 1220,
  990, 840, 710, 610, 530, 460, 400, 360, 320, 300, 270, 240, 230, 210, 190,
  2430, 2120, 1800, 1510, 1220, 990, 840, 710, 610, 530, 460, 410, 360, 320, 300,
  270, 240, 230, 210, 190]

theorem meanKeeley_length : meanKeeley.length = 8000 := by decide +kernel

theorem meanKeeley_bounds : (meanKeeley.all fun x => Nat.ble 0 x && Nat.ble x 2520) = true := by
  decide +kernel

/-- `_log10_mbound_over_minfall_scatter_dex`, `galacticus_truncation/tabulated_mass_loss_Keeley24.py` 3-3. -/
def scatterKeeley : List Nat := [
  0, 0, 0, 0, 0, 0, 0, 0, 0, 0, 0, 0, 0, 0, 0,
  0, 0, 0, 0, 0, 0, 0, 0, 0, 0, 0, 0, 0, 0, 0,
  0, 0, 0, 0, 0, 0, 0, 0, 0, 0, 0, 0, 0, 0, 0,
  0, 0, 0, 0, 0, 0, 0, 0, 0, 0, 0, 0, 0, 0, 0,
  0, 0, 0, 0, 0, 0, 0, 0, 0, 0, 0, 0, 0, 0, 0,
  0, 0, 0, 0, 0, 0, 0, 0, 0, 0, 0, 0, 0, 0, 0,
  0, 0, 0, 0, 0, 0, 0, 0, 0, 0, 0, 0, 0, 0, 0,
  0, 0, 0, 0, 0, 0, 0, 0, 0, 0, 0, 0, 0, 0, 0,
  0, 0, 0, 0, 0, 0, 0, 0, 0, 0, 0, 0, 0, 0, 0,
  0, 0, 0, 0, 0, 0, 0, 0, 0, 0, 0, 0, 0, 0, 0,
  0, 0, 0, 0, 0, 0, 0, 0, 0, 0, 0, 0, 0, 0, 0,
  0, 0, 0, 0, 0, 0, 0, 0, 0, 0, 0, 0, 0, 0, 0,
  0, 0, 0, 0, 0, 0, 0, 0, 0, 0, 0, 0, 0, 0, 0,
  0, 0, 0, 0, 0, 0, 0, 0, 0, 0, 0, 0, 0, 0, 0,
  0, 0, 0, 0, 0, 0, 0, 0, 0, 0, 0, 0, 0, 0, 0,
  0, 0, 0, 0, 0, 0, 0, 0, 0, 0, 0, 0, 0, 0, 0,
  0, 0, 0, 0, 0, 0, 0, 0, 0, 0, 0, 0, 0, 0, 0,
  0, 0, 0, 0, 0, 0, 0, 0, 0, 0, 0, 0, 0, 0, 0,
  0, 0, 0, 0, 0, 0, 0, 0, 0, 0, 0, 0, 0, 0, 0,
  0, 0, 0, 0, 0, 0, 0, 0, 0, 0, 0, 0, 0, 0, 0,
  0, 0, 0, 0, 0, 0, 0, 0, 0, 0, 0, 0, 0, 0, 0,
  0, 0, 0, 0, 0, 0, 0, 0, 0, 0, 0, 0, 0, 0, 0,
  0, 0, 0, 0, 0, 0, 0, 0, 0, 0, 0, 0, 0, 0, 0,
  0, 0, 0, 0, 0, 0, 0, 0, 0, 0, 0, 0, 0, 0, 0,
  0, 0, 0, 0, 0, 0, 0, 0, 0, 0, 0, 0, 0, 0, 0,
  0, 0, 0, 0, 0, 0, 0, 0, 0, 0, 0, 0, 0, 0, 0,
  0, 0, 0, 0, 0, 0, 0, 0, 0, 0, 30, 30, 20, 20, 20,
  20, 10, 10, 10, 10, 10, 10, 10, 10, 10, 10, 10, 10, 10, 0,
  50, 30, 30, 30, 30, 20, 10, 20, 20, 20, 10, 10, 10, 10, 10,
  10, 10, 10, 10, 10, 60, 30, 30, 30, 30, 20, 10, 20, 20, 20,
  10, 10, 10, 10, 10, 10, 10, 10, 10, 10, 60, 30, 30, 30, 30,
  20, 20, 20, 20, 20, 10, 10, 10, 10, 10, 10, 10, 10, 10, 10,
  60, 30, 30, 30, 30, 20, 30, 20, 20, 20, 10, 10, 10, 10, 10,
  10, 10, 10, 10, 10, 60, 30, 30, 30, 30, 20, 30, 20, 20, 20,
  20, 10, 10, 10, 10, 10, 10, 10, 10, 10, 60, 30, 30, 30, 30,
  30, 20, 20, 20, 20, 20, 10, 10, 10, 10, 10, 10, 10, 10, 10,
  60, 30, 30, 30, 30, 30, 20, 20, 20, 20, 20, 10, 10, 10, 10,
  10, 10, 10, 10, 10, 60, 30, 30, 30, 30, 30, 20, 20, 20, 20,
  20, 10, 10, 10, 10, 10, 10, 10, 10, 10, 60, 30, 30, 30, 30,
  30, 20, 20, 20, 20, 20, 10, 10, 10, 10, 10, 10, 10, 10, 10,
  60, 60, 60, 60, 50, 20, 20, 20, 20, 20, 20, 20, 10, 10, 10,
  10, 10, 10, 10, 10, 60, 60, 60, 60, 50, 20, 20, 20, 20, 20,
  20, 20, 10, 10, 10, 10, 10, 10, 10, 10, 60, 60, 60, 60, 50,
  30, 20, 20, 20, 20, 20, 20, 10, 10, 10, 10, 10, 10, 10, 10,
  60, 60, 60, 60, 50, 30, 20, 20, 20, 20, 20, 20, 10, 10, 10,
  10, 10, 10, 10, 10, 60, 60, 60, 60, 50, 30, 20, 20, 20, 20,
  20, 20, 10, 10, 10, 10, 10, 10, 10, 10, 60, 60, 60, 60, 50,
  30, 20, 20, 20, 20, 20, 20, 10, 10, 10, 10, 10, 10, 10, 10,
  60, 60, 60, 60, 50, 30, 30, 20, 20, 20, 20, 20, 10, 10, 10,
  10, 10, 10, 10, 10, 60, 60, 60, 60, 50, 30, 30, 20, 20, 20,
  20, 20, 20, 10, 10, 10, 10, 10, 10, 10, 70, 70, 70, 60, 60,
  30, 30, 20, 20, 20, 20, 20, 20, 10, 10, 10, 10, 10, 10, 10,
  80, 80, 80, 80, 70, 30, 30, 30, 30, 20, 20, 20, 20, 10, 10,
  10, 10, 10, 10, 10, 60, 60, 60, 50, 40, 30, 30, 30, 20, 20,
  20, 20, 10, 10, 10, 10, 10, 10, 10, 10, 80, 60, 60, 60, 50,
  40, 40, 30, 30, 30, 20, 20, 10, 10, 10, 10, 10, 10, 10, 10,
  100, 70, 70, 60, 60, 40, 50, 30, 30, 30, 20, 20, 10, 10, 20,
  10, 10, 10, 10, 10, 120, 80, 70, 70, 70, 40, 40, 30, 40, 40,
  20, 20, 10, 10, 20, 20, 20, 20, 20, 10, 120, 80, 70, 70, 70,
  40, 40, 30, 40, 40, 20, 20, 10, 20, 20, 20, 20, 20, 20, 10,
  120, 80, 70, 70, 70, 40, 50, 30, 40, 40, 30, 20, 10, 20, 20,
  20, 20, 20, 20, 10, 120, 80, 70, 70, 70, 50, 50, 40, 40, 40,
  30, 20, 10, 20, 20, 20, 20, 20, 20, 10, 120, 80, 70, 70, 70,
  60, 50, 40, 40, 40, 30, 20, 10, 20, 20, 20, 20, 20, 20, 10,
  120, 80, 70, 70, 70, 60, 50, 40, 40, 40, 30, 20, 20, 20, 20,
  20, 20, 20, 20, 10, 120, 80, 70, 70, 70, 60, 50, 40, 40, 40,
  30, 20, 20, 20, 20, 20, 20, 20, 20, 10, 120, 120, 120, 120, 80,
  60, 50, 40, 40, 40, 30, 30, 20, 20, 20, 20, 20, 10, 10, 10,
  120, 120, 120, 120, 80, 60, 50, 40, 40, 40, 30, 30, 20, 20, 20,
  20, 20, 10, 10, 10, 120, 120, 120, 120, 80, 50, 50, 40, 40, 40,
  30, 30, 20, 20, 20, 20, 20, 10, 10, 10, 120, 120, 120, 120, 90,
  60, 50, 40, 40, 40, 30, 40, 20, 20, 20, 20, 20, 10, 10, 10,
  120, 120, 120, 120, 90, 60, 50, 40, 40, 40, 30, 40, 30, 20, 20,
  20, 20, 10, 10, 10, 120, 120, 120, 120, 90, 50, 50, 40, 40, 40,
  30, 40, 30, 20, 20, 20, 20, 20, 10, 10, 120, 120, 120, 120, 90,
  60, 50, 40, 40, 40, 40, 30, 30, 20, 20, 20, 20, 10, 10, 10,
  130, 130, 130, 130, 90, 60, 50, 40, 40, 40, 40, 30, 30, 20, 20,
  20, 20, 20, 10, 10, 150, 150, 140, 140, 90, 60, 60, 50, 50, 40,
  30, 30, 30, 20, 20, 20, 20, 20, 20, 20, 170, 160, 150, 150, 110,
  60, 60, 60, 50, 40, 30, 30, 30, 20, 20, 20, 20, 20, 20, 20,
  90, 90, 90, 80, 60, 50, 40, 40, 30, 30, 30, 20, 20, 20, 20,
  20, 10, 10, 10, 10, 110, 100, 90, 80, 60, 50, 40, 40, 40, 40,
  30, 20, 20, 20, 20, 20, 20, 20, 20, 10, 130, 90, 90, 100, 80,
  50, 60, 50, 40, 40, 30, 20, 20, 20, 20, 20, 20, 20, 20, 10,
  150, 110, 100, 100, 90, 50, 60, 50, 50, 50, 30, 20, 20, 20, 20,
  20, 20, 20, 20, 20, 180, 140, 100, 120, 100, 60, 80, 50, 50, 50,
  30, 20, 20, 20, 20, 20, 20, 20, 20, 20, 180, 140, 100, 110, 100,
  80, 80, 50, 60, 50, 30, 20, 20, 20, 20, 20, 20, 20, 20, 20,
  180, 140, 100, 100, 100, 80, 70, 60, 60, 50, 40, 30, 20, 30, 20,
  20, 20, 20, 20, 20, 180, 140, 100, 100, 100, 90, 80, 60, 40, 50,
  40, 30, 20, 30, 20, 20, 20, 20, 20, 20, 180, 140, 100, 100, 100,
  90, 70, 60, 50, 60, 40, 30, 30, 30, 30, 20, 20, 20, 20, 20,
  180, 150, 100, 100, 100, 90, 70, 60, 60, 60, 40, 40, 30, 30, 30,
  20, 20, 20, 20, 20, 180, 180, 180, 160, 110, 80, 70, 60, 60, 60,
  40, 40, 30, 30, 30, 30, 20, 20, 20, 20, 180, 180, 180, 160, 120,
  90, 70, 60, 60, 60, 40, 40, 30, 30, 30, 30, 20, 20, 20, 20,
  180, 180, 180, 160, 120, 90, 70, 60, 60, 60, 40, 50, 40, 30, 30,
  30, 20, 20, 20, 20, 180, 180, 180, 160, 120, 90, 70, 70, 60, 60,
  50, 50, 40, 30, 30, 30, 20, 20, 20, 20, 180, 180, 180, 160, 120,
  80, 70, 70, 60, 60, 50, 50, 40, 30, 30, 30, 20, 20, 20, 20,
  180, 180, 180, 160, 120, 80, 80, 70, 60, 60, 50, 50, 40, 30, 30,
  30, 30, 20, 20, 20, 200, 190, 190, 170, 130, 90, 80, 70, 70, 60,
  60, 50, 40, 40, 30, 30, 30, 20, 20, 20, 210, 210, 200, 180, 130,
  100, 80, 70, 70, 60, 50, 50, 50, 40, 40, 30, 30, 20, 20, 20,
  230, 230, 230, 190, 130, 100, 90, 80, 70, 60, 50, 50, 50, 40, 40,
  40, 30, 30, 20, 20, 250, 240, 230, 200, 140, 100, 90, 90, 80, 60,
  50, 50, 50, 40, 40, 40, 30, 30, 20, 20, 120, 120, 120, 90, 70,
  60, 60, 50, 40, 40, 30, 30, 20, 20, 20, 20, 20, 20, 20, 10,
  150, 120, 120, 110, 80, 70, 60, 60, 50, 50, 30, 30, 20, 20, 20,
  20, 20, 20, 20, 20, 160, 130, 130, 120, 100, 70, 70, 60, 50, 50,
  30, 30, 20, 20, 30, 20, 20, 20, 20, 20, 180, 150, 140, 130, 100,
  80, 80, 60, 60, 60, 30, 30, 20, 20, 30, 30, 30, 30, 20, 20,
  200, 160, 130, 160, 120, 90, 90, 60, 70, 60, 40, 30, 20, 30, 30,
  30, 30, 30, 30, 20, 220, 180, 150, 140, 140, 100, 100, 70, 70, 50,
  40, 30, 30, 30, 30, 30, 30, 30, 30, 20, 240, 200, 160, 140, 150,
  120, 100, 70, 60, 60, 50, 40, 30, 40, 40, 30, 30, 30, 30, 20,
  230, 200, 170, 140, 150, 120, 100, 70, 60, 70, 50, 40, 30, 40, 40,
  30, 30, 30, 30, 20, 230, 200, 160, 160, 150, 120, 100, 80, 70, 70,
  60, 40, 40, 40, 40, 30, 30, 30, 30, 20, 240, 200, 180, 160, 150,
  120, 90, 80, 70, 70, 60, 50, 40, 40, 40, 30, 30, 30, 30, 20,
  240, 240, 230, 190, 150, 120, 90, 90, 70, 70, 60, 50, 50, 40, 40,
  40, 30, 30, 20, 20, 230, 250, 240, 190, 150, 110, 90, 90, 70, 70,
  60, 60, 50, 40, 40, 40, 30, 30, 20, 20, 240, 240, 230, 190, 150,
  120, 90, 90, 70, 70, 60, 60, 50, 40, 40, 40, 30, 30, 20, 20,
  240, 230, 240, 200, 150, 120, 90, 90, 70, 70, 70, 60, 50, 40, 40,
  40, 30, 30, 20, 20, 240, 240, 240, 200, 150, 120, 100, 90, 80, 70,
  70, 60, 50, 40, 40, 40, 30, 30, 30, 30, 260, 260, 250, 200, 160,
  120, 100, 100, 90, 70, 70, 70, 50, 50, 40, 40, 30, 30, 30, 30,
  280, 280, 270, 200, 160, 130, 110, 100, 90, 70, 70, 70, 60, 50, 50,
  40, 40, 30, 30, 30, 300, 300, 280, 220, 170, 140, 110, 100, 90, 80,
  70, 70, 60, 50, 50, 40, 40, 30, 30, 30, 310, 310, 290, 240, 180,
  130, 120, 110, 100, 70, 70, 60, 60, 50, 50, 40, 40, 40, 30, 30,
  320, 320, 310, 250, 190, 140, 120, 120, 100, 80, 70, 60, 60, 50, 50,
  50, 40, 40, 30, 30, 160, 170, 130, 110, 90, 80, 70, 60, 50, 50,
  40, 40, 30, 30, 30, 20, 30, 20, 20, 20, 180, 180, 160, 120, 100,
  80, 80, 70, 60, 60, 40, 40, 30, 30, 30, 30, 30, 20, 20, 20,
  200, 180, 160, 150, 120, 100, 90, 70, 60, 60, 40, 40, 30, 30, 30,
  30, 30, 30, 30, 20, 220, 180, 160, 150, 130, 110, 100, 80, 70, 70,
  40, 40, 30, 30, 30, 30, 30, 30, 30, 20, 240, 200, 190, 180, 140,
  120, 100, 80, 80, 70, 50, 40, 40, 40, 40, 30, 30, 30, 30, 20,
  260, 220, 190, 190, 150, 130, 110, 80, 80, 70, 50, 50, 40, 40, 40,
  40, 40, 30, 30, 30, 280, 240, 200, 200, 160, 140, 120, 80, 70, 80,
  60, 50, 40, 40, 40, 40, 40, 40, 30, 30, 300, 260, 220, 230, 180,
  150, 130, 90, 80, 80, 60, 60, 50, 40, 40, 40, 40, 40, 40, 30,
  310, 260, 220, 190, 180, 150, 120, 100, 80, 80, 70, 60, 50, 50, 50,
  40, 40, 40, 30, 30, 300, 270, 220, 230, 180, 150, 120, 110, 90, 80,
  70, 60, 50, 50, 50, 40, 40, 40, 40, 30, 300, 300, 260, 220, 180,
  150, 120, 110, 90, 80, 70, 70, 60, 50, 50, 40, 40, 40, 30, 30,
  310, 300, 260, 220, 180, 150, 120, 110, 90, 80, 80, 70, 60, 50, 50,
  40, 40, 40, 30, 30, 300, 300, 260, 220, 180, 150, 120, 110, 90, 90,
  80, 70, 60, 50, 50, 40, 40, 40, 30, 30, 310, 310, 280, 230, 190,
  150, 120, 120, 100, 90, 80, 70, 60, 50, 50, 50, 40, 40, 30, 30,
  330, 330, 290, 230, 190, 150, 120, 120, 110, 90, 90, 80, 70, 60, 50,
  50, 40, 40, 30, 30, 340, 340, 300, 240, 200, 160, 130, 120, 110, 90,
  90, 80, 70, 60, 50, 50, 40, 40, 30, 30, 360, 350, 320, 250, 200,
  160, 140, 130, 110, 90, 90, 80, 70, 60, 60, 50, 50, 40, 40, 40,
  380, 360, 320, 260, 210, 170, 140, 130, 120, 90, 90, 80, 70, 60, 60,
  50, 50, 40, 40, 40, 380, 380, 330, 270, 220, 170, 150, 150, 120, 90,
  90, 80, 80, 60, 60, 50, 50, 40, 40, 40, 400, 390, 340, 280, 220,
  180, 160, 150, 120, 100, 90, 80, 80, 60, 60, 60, 50, 50, 40, 40,
  190, 190, 160, 130, 110, 90, 80, 70, 60, 60, 50, 40, 40, 30, 30,
  30, 30, 30, 20, 20, 210, 200, 170, 150, 120, 100, 90, 80, 70, 60,
  50, 40, 40, 30, 30, 30, 30, 30, 30, 20, 230, 210, 180, 150, 130,
  110, 100, 80, 70, 70, 50, 50, 40, 30, 40, 30, 30, 30, 30, 20,
  250, 220, 210, 180, 140, 120, 110, 90, 80, 70, 60, 50, 40, 40, 40,
  40, 40, 30, 30, 30, 280, 230, 210, 180, 160, 130, 120, 100, 80, 80,
  60, 60, 50, 40, 40, 40, 40, 40, 30, 30, 290, 280, 220, 200, 170,
  140, 130, 110, 80, 80, 70, 60, 50, 40, 40, 40, 40, 40, 30, 30,
  320, 280, 250, 220, 180, 150, 130, 110, 90, 90, 70, 60, 60, 50, 50,
  40, 40, 40, 40, 30, 340, 300, 260, 230, 190, 170, 140, 110, 100, 80,
  70, 70, 60, 50, 50, 40, 40, 40, 40, 30, 370, 320, 280, 260, 200,
  180, 150, 120, 100, 90, 80, 70, 60, 50, 50, 50, 50, 40, 40, 30,
  380, 330, 290, 260, 220, 180, 150, 130, 110, 100, 80, 80, 70, 60, 60,
  50, 50, 40, 40, 40, 370, 340, 300, 260, 210, 180, 150, 130, 110, 100,
  90, 80, 70, 60, 60, 50, 50, 40, 40, 40, 360, 340, 300, 250, 210,
  180, 150, 140, 110, 100, 90, 80, 70, 60, 60, 50, 50, 40, 40, 40,
  390, 360, 300, 260, 220, 180, 150, 140, 120, 100, 90, 80, 80, 70, 60,
  50, 50, 40, 40, 40, 390, 360, 310, 270, 220, 180, 160, 140, 130, 110,
  90, 90, 80, 70, 60, 50, 50, 50, 40, 40, 410, 390, 320, 290, 230,
  190, 160, 150, 130, 110, 100, 90, 80, 70, 60, 60, 50, 50, 40, 40,
  430, 400, 350, 280, 240, 190, 170, 160, 130, 110, 100, 90, 80, 70, 60,
  60, 50, 50, 40, 40, 430, 410, 360, 300, 240, 200, 170, 160, 140, 110,
  100, 100, 80, 70, 60, 60, 50, 50, 50, 40, 440, 420, 360, 320, 240,
  200, 180, 160, 140, 110, 110, 100, 90, 70, 70, 60, 60, 50, 50, 40,
  460, 430, 380, 320, 260, 210, 180, 170, 140, 120, 110, 100, 90, 70, 70,
  60, 60, 50, 50, 50, 480, 440, 400, 320, 260, 210, 190, 180, 140, 120,
  110, 100, 90, 80, 70, 60, 60, 50, 50, 50, 230, 200, 160, 140, 120,
  100, 100, 90, 80, 70, 60, 50, 40, 40, 40, 40, 30, 30, 30, 20,
  250, 210, 170, 150, 130, 110, 100, 90, 80, 70, 60, 50, 50, 40, 40,
  40, 40, 30, 30, 20, 290, 220, 190, 160, 140, 120, 110, 100, 80, 80,
  60, 60, 50, 40, 40, 40, 40, 30, 30, 30, 300, 240, 210, 180, 150,
  130, 120, 100, 90, 80, 70, 60, 50, 50, 40, 40, 40, 40, 30, 30,
  320, 260, 220, 200, 180, 140, 130, 110, 90, 90, 70, 60, 60, 50, 50,
  50, 40, 40, 30, 30, 340, 290, 250, 200, 180, 150, 140, 120, 100, 90,
  80, 70, 60, 50, 50, 50, 40, 40, 40, 30, 340, 300, 260, 220, 200,
  160, 140, 130, 110, 90, 80, 70, 70, 60, 50, 50, 40, 40, 40, 30,
  360, 320, 280, 250, 210, 170, 150, 130, 110, 100, 80, 80, 70, 60, 60,
  50, 50, 40, 40, 40, 400, 340, 300, 260, 220, 180, 160, 140, 120, 100,
  90, 80, 70, 60, 60, 50, 50, 50, 40, 40, 410, 360, 320, 270, 230,
  200, 170, 150, 120, 110, 90, 80, 80, 70, 60, 60, 50, 50, 40, 40,
  430, 380, 330, 280, 240, 200, 180, 150, 130, 110, 100, 90, 80, 70, 60,
  60, 50, 50, 40, 40, 450, 390, 340, 290, 250, 210, 180, 150, 140, 110,
  100, 90, 80, 70, 70, 60, 50, 50, 50, 40, 450, 400, 340, 290, 250,
  210, 180, 160, 140, 120, 100, 90, 90, 80, 70, 60, 60, 50, 50, 40,
  460, 410, 360, 310, 260, 210, 190, 170, 140, 120, 100, 90, 90, 80, 70,
  60, 60, 50, 50, 40, 480, 430, 370, 320, 260, 220, 190, 170, 150, 120,
  110, 100, 90, 80, 70, 60, 60, 60, 50, 50, 490, 430, 390, 340, 270,
  220, 200, 180, 150, 130, 110, 100, 90, 80, 70, 70, 60, 60, 50, 50,
  500, 450, 390, 340, 280, 230, 200, 190, 150, 130, 110, 100, 90, 80, 70,
  70, 60, 60, 50, 50, 520, 470, 400, 340, 280, 230, 210, 190, 160, 130,
  120, 100, 100, 80, 80, 70, 60, 60, 50, 50, 530, 480, 420, 350, 290,
  240, 220, 190, 160, 140, 120, 110, 100, 90, 80, 70, 70, 60, 60, 50,
  550, 490, 420, 360, 300, 250, 220, 200, 160, 140, 120, 110, 100, 90, 80,
  70, 70, 60, 60, 50, 260, 200, 180, 150, 130, 110, 100, 90, 80, 70,
  60, 50, 50, 40, 40, 40, 40, 30, 30, 20, 280, 220, 190, 170, 140,
  120, 110, 100, 80, 70, 60, 50, 50, 40, 40, 40, 40, 30, 30, 30,
  290, 250, 200, 180, 160, 130, 120, 100, 80, 80, 70, 60, 50, 50, 40,
  40, 40, 40, 30, 30, 310, 250, 220, 190, 160, 140, 120, 110, 90, 80,
  70, 60, 50, 50, 40, 40, 40, 40, 30, 30, 340, 290, 240, 220, 170,
  150, 130, 110, 100, 90, 70, 60, 60, 50, 50, 50, 40, 40, 30, 30,
  350, 300, 260, 220, 200, 160, 140, 120, 100, 90, 80, 70, 60, 60, 50,
  50, 40, 40, 40, 30, 370, 320, 280, 250, 200, 170, 150, 130, 110, 100,
  80, 70, 70, 60, 50, 50, 50, 40, 40, 40, 400, 340, 300, 260, 220,
  180, 160, 130, 120, 100, 90, 80, 70, 60, 60, 50, 50, 40, 40, 40,
  420, 360, 320, 270, 230, 190, 170, 140, 120, 110, 90, 80, 70, 60, 60,
  60, 50, 50, 40, 40, 440, 380, 340, 290, 250, 200, 170, 150, 130, 110,
  100, 90, 80, 70, 60, 60, 50, 50, 40, 40, 460, 400, 340, 300, 260,
  220, 190, 160, 140, 110, 100, 90, 80, 70, 60, 60, 50, 50, 40, 40,
  460, 400, 360, 310, 260, 220, 190, 160, 140, 120, 100, 90, 80, 70, 70,
  60, 60, 50, 50, 40, 480, 410, 370, 310, 270, 230, 190, 170, 150, 120,
  100, 90, 90, 80, 70, 60, 60, 50, 50, 40, 490, 430, 380, 320, 280,
  230, 200, 180, 150, 120, 110, 100, 90, 80, 70, 60, 60, 50, 50, 40,
  510, 430, 390, 340, 280, 230, 200, 180, 150, 130, 110, 100, 90, 80, 70,
  70, 60, 60, 50, 50, 520, 440, 390, 350, 290, 230, 210, 190, 160, 130,
  110, 100, 90, 80, 70, 70, 60, 60, 50, 50, 540, 460, 410, 350, 300,
  240, 210, 190, 160, 130, 120, 100, 100, 80, 80, 70, 60, 60, 50, 50,
  550, 480, 420, 370, 300, 240, 220, 200, 160, 140, 120, 110, 100, 90, 80,
  70, 70, 60, 60, 50, 570, 490, 430, 370, 310, 250, 220, 200, 160, 140,
  120, 110, 100, 90, 80, 70, 70, 60, 60, 50, 590, 510, 450, 380, 310,
  250, 230, 200, 170, 140, 120, 120, 100, 90, 80, 70, 70, 60, 60, 50,
  280, 230, 200, 180, 140, 120, 100, 90, 80, 70, 60, 50, 50, 40, 40,
  40, 40, 30, 30, 30, 300, 250, 200, 170, 150, 120, 110, 100, 90, 70,
  60, 60, 50, 40, 40, 40, 40, 30, 30, 30, 320, 260, 220, 190, 170,
  130, 120, 110, 90, 80, 70, 60, 50, 50, 40, 40, 40, 40, 30, 30,
  340, 290, 230, 200, 180, 150, 130, 110, 100, 90, 70, 60, 50, 50, 50,
  40, 40, 40, 30, 30, 360, 310, 260, 220, 190, 160, 140, 120, 110, 90,
  80, 70, 60, 50, 50, 50, 40, 40, 40, 30, 380, 330, 280, 240, 200,
  170, 150, 130, 110, 100, 80, 70, 60, 60, 50, 50, 50, 40, 40, 30,
  410, 350, 300, 260, 220, 180, 150, 130, 110, 100, 90, 70, 70, 60, 50,
  50, 50, 40, 40, 40, 430, 370, 310, 280, 230, 190, 160, 140, 120, 110,
  90, 80, 70, 60, 60, 50, 50, 50, 40, 40, 450, 400, 340, 290, 250,
  200, 170, 150, 130, 110, 90, 80, 70, 70, 60, 60, 50, 50, 40, 40,
  470, 420, 370, 320, 260, 210, 180, 150, 140, 110, 100, 90, 80, 70, 60,
  60, 50, 50, 50, 40, 470, 430, 370, 330, 270, 220, 200, 160, 140, 120,
  100, 90, 80, 70, 70, 60, 60, 50, 50, 40, 500, 430, 370, 320, 280,
  230, 200, 170, 150, 120, 110, 90, 80, 80, 70, 60, 60, 50, 50, 40,
  510, 440, 380, 330, 290, 240, 200, 180, 150, 120, 110, 100, 90, 80, 70,
  70, 60, 50, 50, 40, 520, 450, 390, 340, 290, 240, 210, 180, 160, 130,
  110, 100, 90, 80, 70, 70, 60, 50, 50, 50, 530, 460, 400, 340, 300,
  240, 210, 190, 160, 130, 110, 100, 90, 80, 70, 70, 60, 60, 50, 50,
  540, 480, 420, 360, 310, 240, 210, 200, 160, 130, 120, 110, 90, 80, 80,
  70, 60, 60, 50, 50, 570, 490, 420, 380, 310, 250, 220, 200, 170, 130,
  120, 110, 100, 90, 80, 70, 60, 60, 50, 50, 600, 500, 440, 380, 320,
  250, 220, 210, 160, 140, 120, 110, 100, 90, 80, 70, 60, 60, 50, 50,
  620, 520, 460, 390, 320, 260, 230, 210, 170, 140, 120, 110, 100, 90, 80,
  80, 70, 60, 60, 50, 640, 530, 460, 400, 330, 270, 230, 210, 170, 140,
  120, 120, 100, 90, 80, 80, 70, 60, 60, 50, 300, 250, 220, 180, 160,
  120, 110, 100, 90, 70, 60, 50, 50, 40, 40, 40, 40, 30, 30, 30,
  320, 270, 240, 190, 180, 130, 120, 100, 90, 80, 70, 60, 50, 50, 40,
  40, 40, 40, 30, 30, 350, 290, 240, 200, 180, 140, 120, 110, 100, 80,
  70, 60, 50, 50, 40, 40, 40, 40, 30, 30, 370, 320, 260, 220, 200,
  150, 130, 120, 100, 90, 80, 60, 60, 50, 50, 40, 40, 40, 40, 30,
  400, 340, 280, 240, 210, 170, 140, 120, 110, 100, 80, 70, 60, 60, 50,
  50, 40, 40, 40, 30, 410, 360, 300, 260, 220, 180, 150, 130, 110, 100,
  80, 70, 60, 60, 50, 50, 50, 40, 40, 30, 440, 370, 320, 280, 230,
  190, 160, 140, 120, 100, 90, 80, 70, 60, 60, 50, 50, 40, 40, 40,
  450, 390, 340, 290, 250, 200, 170, 150, 130, 110, 90, 80, 70, 60, 60,
  50, 50, 50, 40, 40, 460, 420, 370, 300, 260, 210, 180, 160, 130, 110,
  100, 80, 80, 70, 60, 60, 50, 50, 40, 40, 490, 440, 380, 340, 270,
  220, 190, 160, 140, 120, 100, 90, 80, 70, 60, 60, 50, 50, 50, 40,
  500, 450, 400, 340, 290, 240, 210, 170, 150, 120, 100, 90, 90, 80, 70,
  60, 50, 50, 50, 40, 520, 460, 400, 360, 290, 240, 210, 180, 160, 120,
  110, 90, 90, 80, 70, 60, 60, 50, 50, 40, 540, 460, 410, 360, 300,
  250, 210, 180, 160, 130, 110, 100, 90, 80, 70, 70, 60, 50, 50, 40,
  550, 470, 420, 360, 310, 250, 220, 190, 160, 130, 110, 100, 90, 80, 70,
  70, 60, 50, 50, 50, 560, 490, 420, 360, 310, 250, 220, 200, 170, 130,
  120, 110, 90, 80, 80, 70, 60, 60, 50, 50, 590, 500, 440, 380, 320,
  260, 220, 200, 180, 140, 120, 110, 100, 90, 80, 70, 60, 60, 50, 50,
  610, 520, 440, 390, 330, 270, 220, 210, 170, 140, 120, 110, 100, 90, 80,
  70, 60, 60, 50, 50, 640, 540, 470, 400, 330, 270, 230, 210, 170, 150,
  130, 120, 100, 90, 80, 70, 60, 60, 60, 50, 650, 560, 470, 410, 340,
  280, 230, 220, 180, 140, 130, 120, 100, 90, 80, 80, 70, 60, 60, 50,
  680, 580, 490, 410, 350, 280, 240, 220, 170, 150, 130, 120, 110, 90, 80,
  80, 70, 60, 60, 50, 330, 280, 230, 210, 170, 130, 110, 100, 90, 80,
  70, 60, 50, 40, 40, 40, 40, 30, 30, 30, 350, 300, 250, 200, 170,
  140, 120, 110, 100, 80, 70, 60, 50, 50, 40, 40, 40, 40, 30, 30,
  370, 320, 270, 220, 190, 150, 130, 110, 100, 90, 70, 60, 60, 50, 50,
  40, 40, 40, 30, 30, 400, 340, 290, 240, 200, 160, 140, 120, 100, 90,
  80, 70, 60, 50, 50, 40, 40, 40, 40, 30, 420, 360, 300, 260, 220,
  180, 150, 130, 110, 100, 80, 70, 60, 60, 50, 50, 50, 40, 40, 30,
  440, 380, 330, 260, 230, 190, 160, 140, 120, 100, 90, 80, 70, 60, 50,
  50, 50, 40, 40, 40, 460, 400, 350, 290, 250, 200, 160, 150, 130, 110,
  90, 80, 70, 60, 60, 50, 50, 50, 40, 40, 470, 420, 370, 320, 260,
  220, 170, 150, 130, 110, 90, 80, 70, 70, 60, 50, 50, 50, 40, 40,
  500, 440, 400, 340, 280, 230, 180, 160, 140, 110, 100, 90, 80, 70, 60,
  60, 50, 50, 40, 40, 520, 470, 420, 350, 290, 240, 200, 170, 140, 120,
  100, 90, 80, 70, 70, 60, 60, 50, 50, 40, 540, 480, 430, 360, 300,
  250, 220, 170, 150, 120, 110, 90, 90, 80, 70, 60, 60, 50, 50, 40,
  550, 480, 430, 370, 310, 260, 220, 180, 160, 130, 110, 100, 90, 80, 70,
  70, 60, 50, 50, 40, 560, 490, 430, 380, 310, 260, 220, 190, 160, 130,
  110, 100, 90, 80, 70, 70, 60, 50, 50, 40, 580, 500, 430, 390, 320,
  260, 230, 190, 170, 130, 120, 100, 90, 80, 80, 70, 60, 50, 50, 50,
  610, 520, 460, 390, 330, 270, 240, 200, 180, 140, 120, 110, 90, 90, 80,
  70, 60, 60, 50, 50, 630, 530, 460, 390, 340, 270, 230, 200, 180, 140,
  120, 110, 100, 90, 80, 70, 60, 60, 50, 50, 650, 560, 480, 410, 340,
  280, 240, 220, 180, 150, 130, 120, 100, 90, 80, 70, 60, 60, 50, 50,
  670, 580, 500, 410, 350, 290, 250, 220, 190, 150, 130, 120, 100, 90, 80,
  80, 70, 60, 50, 50, 700, 600, 500, 420, 360, 290, 250, 230, 180, 150,
  130, 120, 110, 90, 80, 80, 70, 60, 60, 50, 720, 620, 520, 430, 360,
  300, 250, 230, 190, 150, 130, 120, 110, 90, 90, 80, 70, 60, 60, 50,
  360, 310, 260, 230, 180, 140, 120, 110, 90, 80, 70, 60, 50, 50, 40,
  40, 40, 40, 30, 30, 380, 330, 280, 230, 190, 150, 130, 110, 100, 80,
  70, 60, 50, 50, 40, 40, 40, 40, 30, 30, 400, 350, 300, 250, 200,
  160, 140, 120, 100, 90, 80, 70, 60, 50, 50, 40, 40, 40, 40, 30,
  420, 370, 310, 260, 220, 170, 150, 130, 110, 90, 80, 70, 60, 50, 50,
  50, 40, 40, 40, 30, 440, 400, 330, 280, 220, 180, 150, 130, 120, 100,
  80, 70, 60, 60, 50, 50, 50, 40, 40, 30, 460, 410, 360, 310, 250,
  200, 160, 140, 120, 100, 90, 80, 70, 60, 60, 50, 50, 50, 40, 40,
  490, 430, 380, 320, 260, 210, 170, 150, 130, 110, 90, 80, 70, 60, 60,
  50, 50, 50, 40, 40, 500, 450, 400, 340, 270, 230, 190, 160, 140, 110,
  100, 90, 70, 70, 60, 50, 50, 50, 40, 40, 520, 480, 420, 350, 290,
  240, 200, 160, 140, 120, 100, 90, 80, 70, 60, 60, 50, 50, 40, 40,
  540, 500, 430, 370, 300, 250, 210, 170, 150, 120, 110, 90, 80, 70, 70,
  60, 60, 50, 50, 40, 560, 510, 440, 380, 310, 270, 220, 180, 160, 130,
  110, 100, 90, 80, 70, 60, 60, 50, 50, 40, 580, 510, 450, 390, 320,
  270, 220, 190, 160, 130, 110, 100, 90, 80, 70, 70, 60, 50, 50, 40,
  600, 510, 460, 400, 330, 270, 230, 190, 170, 130, 110, 100, 90, 80, 70,
  70, 60, 50, 50, 40, 620, 530, 460, 400, 340, 280, 240, 200, 170, 130,
  120, 110, 90, 80, 80, 70, 60, 50, 50, 40, 650, 550, 460, 410, 340,
  280, 240, 210, 170, 140, 120, 110, 100, 90, 80, 70, 60, 60, 50, 50,
  670, 570, 480, 420, 350, 290, 240, 210, 190, 140, 120, 110, 100, 90, 80,
  70, 60, 60, 50, 50, 690, 600, 510, 430, 360, 300, 260, 220, 190, 150,
  120, 120, 100, 90, 80, 70, 60, 60, 50, 50, 710, 620, 520, 440, 360,
  300, 260, 220, 200, 150, 140, 120, 100, 90, 80, 80, 70, 60, 60, 50,
  730, 640, 540, 460, 380, 310, 260, 230, 200, 150, 140, 130, 110, 90, 80,
  80, 70, 60, 60, 50, 750, 660, 560, 470, 380, 320, 260, 240, 190, 160,
  130, 130, 110, 90, 80, 80, 70, 60, 60, 50, 380, 330, 280, 230, 180,
  150, 130, 110, 90, 80, 70, 60, 50, 50, 40, 40, 40, 40, 30, 30,
  400, 350, 300, 250, 200, 160, 140, 120, 100, 90, 80, 60, 60, 50, 50,
  40, 40, 40, 40, 30, 430, 380, 320, 260, 210, 160, 140, 120, 110, 90,
  80, 70, 60, 50, 50, 50, 40, 40, 40, 30, 450, 400, 340, 280, 230,
  180, 150, 130, 110, 100, 80, 70, 60, 60, 50, 50, 40, 40, 40, 30,
  470, 420, 360, 310, 240, 190, 170, 140, 120, 100, 90, 80, 70, 60, 50,
  50, 50, 40, 40, 30, 490, 440, 380, 320, 260, 210, 170, 150, 130, 100,
  90, 80, 70, 60, 60, 50, 50, 50, 40, 40, 510, 460, 400, 340, 270,
  220, 180, 150, 130, 110, 100, 80, 70, 70, 60, 50, 50, 50, 40, 40,
  530, 480, 420, 350, 290, 240, 190, 160, 140, 120, 100, 90, 80, 70, 60,
  60, 50, 50, 40, 40, 550, 500, 430, 370, 300, 250, 200, 170, 150, 120,
  110, 90, 80, 70, 60, 60, 50, 50, 50, 40, 570, 510, 440, 380, 320,
  260, 210, 170, 150, 130, 110, 100, 80, 80, 70, 60, 60, 50, 50, 40,
  590, 520, 460, 390, 330, 280, 220, 180, 160, 130, 110, 100, 90, 80, 70,
  60, 60, 50, 50, 40, 620, 530, 460, 400, 340, 280, 230, 190, 170, 140,
  110, 100, 90, 80, 70, 70, 60, 50, 50, 40, 640, 540, 470, 410, 340,
  280, 230, 200, 170, 140, 120, 100, 90, 80, 80, 70, 60, 50, 50, 40,
  660, 570, 490, 420, 360, 290, 240, 210, 180, 140, 120, 110, 100, 90, 80,
  70, 60, 50, 50, 40, 690, 590, 500, 430, 360, 300, 250, 210, 180, 140,
  120, 110, 100, 90, 80, 70, 60, 60, 50, 50, 710, 610, 520, 440, 370,
  310, 260, 220, 180, 140, 120, 120, 100, 90, 80, 70, 60, 60, 50, 50,
  730, 630, 540, 470, 380, 310, 260, 220, 190, 150, 130, 120, 110, 90, 80,
  70, 60, 60, 50, 50, 750, 650, 560, 490, 390, 320, 270, 240, 200, 150,
  130, 120, 110, 90, 80, 80, 70, 60, 50, 50, 770, 680, 590, 500, 400,
  330, 270, 240, 200, 160, 140, 130, 110, 100, 90, 80, 70, 60, 60, 50,
  790, 700, 600, 500, 410, 330, 280, 250, 210, 160, 140, 130, 120, 100, 90,
  80, 70, 60, 60, 50, 380, 330, 280, 240, 190, 150, 130, 110, 100, 80,
  70, 60, 50, 50, 40, 40, 40, 40, 30, 30, 400, 350, 300, 250, 200,
  160, 140, 110, 100, 80, 70, 60, 50, 50, 50, 40, 40, 40, 30, 30,
  430, 370, 320, 270, 220, 170, 150, 120, 100, 90, 80, 70, 60, 50, 50,
  50, 40, 40, 30, 30, 450, 400, 350, 300, 240, 180, 160, 130, 110, 90,
  80, 70, 60, 50, 50, 50, 40, 40, 30, 30, 470, 420, 370, 300, 250,
  200, 160, 130, 120, 90, 80, 70, 70, 60, 50, 50, 40, 40, 40, 30,
  490, 440, 380, 330, 260, 210, 180, 140, 120, 100, 90, 80, 70, 60, 60,
  50, 50, 40, 40, 30, 510, 460, 410, 340, 280, 220, 180, 150, 130, 100,
  90, 80, 70, 60, 60, 50, 50, 40, 40, 40, 530, 480, 420, 360, 290,
  240, 190, 150, 130, 110, 100, 80, 80, 70, 60, 60, 50, 40, 40, 40,
  560, 500, 440, 370, 310, 250, 200, 160, 140, 120, 100, 90, 80, 70, 60,
  60, 50, 50, 40, 40, 580, 520, 450, 390, 320, 260, 210, 170, 150, 120,
  110, 90, 80, 70, 70, 60, 50, 50, 40, 40, 600, 520, 460, 390, 330,
  270, 220, 180, 150, 130, 110, 90, 90, 80, 70, 60, 50, 50, 40, 40,
  620, 530, 460, 400, 330, 270, 220, 180, 160, 130, 110, 100, 90, 80, 70,
  60, 60, 50, 50, 40, 640, 550, 490, 420, 350, 280, 230, 190, 170, 130,
  110, 100, 90, 80, 70, 60, 60, 50, 50, 40, 660, 580, 510, 440, 360,
  280, 240, 200, 170, 140, 120, 100, 100, 80, 70, 60, 60, 50, 50, 40,
  680, 590, 530, 460, 370, 290, 240, 200, 180, 140, 120, 110, 100, 80, 70,
  70, 60, 50, 50, 40, 700, 620, 550, 470, 380, 300, 250, 210, 180, 140,
  120, 110, 100, 80, 70, 70, 60, 50, 50, 50, 720, 640, 570, 480, 390,
  310, 250, 220, 180, 140, 120, 120, 100, 90, 80, 70, 60, 60, 50, 50,
  750, 660, 580, 490, 390, 310, 260, 230, 190, 150, 130, 120, 110, 90, 80,
  70, 60, 60, 50, 50, 770, 680, 590, 490, 400, 320, 260, 230, 200, 150,
  140, 120, 110, 90, 80, 70, 60, 60, 50, 50, 790, 690, 600, 500, 410,
  330, 280, 240, 200, 160, 140, 130, 110, 90, 80, 70, 60, 60, 50, 50,
  370, 320, 270, 240, 190, 150, 140, 110, 90, 80, 70, 60, 50, 50, 40,
  40, 40, 30, 30, 30, 400, 350, 300, 250, 200, 160, 140, 110, 90, 80,
  70, 60, 50, 50, 40, 40, 40, 30, 30, 30, 420, 370, 320, 270, 220,
  170, 150, 110, 100, 80, 70, 60, 50, 50, 40, 40, 40, 30, 30, 30,
  440, 390, 350, 280, 230, 180, 160, 120, 100, 90, 80, 60, 60, 50, 50,
  40, 40, 40, 30, 30, 460, 420, 360, 300, 240, 200, 170, 120, 110, 90,
  80, 70, 60, 50, 50, 50, 40, 40, 30, 30, 490, 440, 390, 320, 250,
  210, 180, 130, 110, 100, 80, 70, 60, 60, 50, 50, 40, 40, 30, 30,
  510, 460, 400, 340, 270, 230, 180, 140, 120, 100, 90, 80, 70, 60, 60,
  50, 40, 40, 40, 30, 530, 480, 420, 360, 280, 240, 190, 150, 130, 100,
  90, 80, 70, 60, 60, 50, 50, 40, 40, 30, 560, 500, 440, 370, 290,
  240, 200, 150, 130, 110, 100, 80, 70, 70, 60, 50, 50, 40, 40, 40,
  580, 520, 450, 390, 310, 250, 200, 160, 140, 120, 100, 90, 80, 70, 60,
  60, 50, 40, 40, 40, 600, 520, 460, 390, 320, 250, 210, 170, 150, 120,
  100, 90, 80, 70, 60, 60, 50, 50, 40, 40, 620, 530, 460, 390, 330,
  260, 220, 170, 150, 130, 110, 90, 90, 70, 60, 60, 50, 50, 40, 40,
  640, 540, 460, 400, 330, 260, 220, 180, 150, 130, 110, 90, 90, 80, 70,
  60, 50, 50, 40, 40, 660, 550, 470, 410, 340, 270, 220, 180, 160, 130,
  110, 100, 90, 80, 70, 60, 50, 50, 40, 40, 680, 580, 500, 430, 360,
  280, 230, 190, 170, 130, 110, 100, 100, 80, 70, 60, 60, 50, 40, 40,
  700, 600, 520, 450, 360, 290, 240, 200, 170, 140, 110, 100, 100, 80, 70,
  60, 60, 50, 40, 40, 720, 620, 540, 470, 370, 290, 240, 210, 170, 140,
  120, 110, 100, 80, 70, 60, 60, 50, 50, 40, 740, 640, 560, 470, 380,
  300, 250, 210, 180, 140, 120, 110, 100, 80, 70, 70, 60, 50, 50, 40,
  750, 660, 580, 480, 390, 310, 250, 220, 180, 140, 130, 110, 100, 80, 70,
  70, 60, 50, 50, 50, 780, 680, 580, 490, 400, 320, 260, 230, 190, 150,
  130, 120, 100, 90, 80, 70, 60, 50, 50, 50, 360, 320, 280, 240, 190,
  160, 130, 110, 90, 80, 70, 60, 50, 40, 40, 40, 30, 30, 30, 30,
  390, 340, 300, 250, 200, 160, 140, 110, 100, 80, 70, 60, 50, 50, 40,
  40, 30, 30, 30, 30, 420, 370, 320, 270, 220, 170, 150, 110, 100, 80,
  70, 60, 50, 50, 40, 40, 40, 30, 30, 30, 430, 390, 350, 280, 230,
  190, 160, 120, 100, 90, 70, 60, 50, 50, 40, 40, 40, 30, 30, 30,
  460, 420, 360, 300, 230, 200, 170, 120, 100, 90, 80, 60, 60, 50, 50,
  40, 40, 30, 30, 30, 490, 440, 390, 320, 240, 210, 180, 120, 110, 90,
  80, 70, 60, 50, 50, 40, 40, 40, 30, 30, 510, 460, 400, 340, 260,
  220, 180, 130, 110, 100, 90, 70, 60, 60, 50, 50, 40, 40, 30, 30,
  530, 480, 420, 350, 270, 220, 180, 140, 120, 100, 90, 80, 70, 60, 50,
  50, 40, 40, 40, 30, 560, 500, 440, 370, 280, 230, 190, 150, 130, 100,
  90, 80, 70, 60, 60, 50, 40, 40, 40, 30, 580, 520, 450, 380, 300,
  240, 190, 150, 130, 110, 100, 80, 70, 60, 60, 50, 50, 40, 40, 30,
  600, 520, 460, 390, 310, 240, 200, 160, 140, 120, 100, 80, 80, 70, 60,
  50, 50, 40, 40, 40, 620, 520, 460, 380, 320, 250, 210, 160, 140, 120,
  100, 90, 80, 70, 60, 50, 50, 40, 40, 40, 640, 530, 460, 390, 320,
  250, 210, 170, 140, 120, 100, 90, 80, 70, 60, 60, 50, 40, 40, 40,
  660, 550, 460, 400, 330, 260, 210, 180, 150, 120, 110, 90, 90, 70, 60,
  60, 50, 50, 40, 40, 680, 570, 470, 400, 330, 270, 220, 190, 150, 130,
  110, 90, 90, 70, 60, 60, 50, 50, 40, 40, 700, 590, 490, 420, 350,
  270, 220, 190, 160, 130, 110, 100, 90, 80, 70, 60, 50, 50, 40, 40,
  720, 610, 510, 440, 360, 280, 230, 200, 160, 130, 110, 100, 90, 80, 70,
  60, 50, 50, 40, 40, 730, 630, 530, 460, 370, 290, 240, 200, 170, 140,
  120, 100, 90, 80, 70, 60, 60, 50, 40, 40, 740, 650, 550, 470, 370,
  290, 240, 210, 170, 140, 120, 110, 90, 80, 70, 60, 60, 50, 50, 40,
  760, 670, 570, 480, 380, 300, 260, 220, 180, 140, 130, 110, 100, 80, 70,
  70, 60, 50, 50, 40, 350, 320, 280, 240, 190, 160, 130, 110, 90, 70,
  60, 50, 50, 40, 40, 30, 30, 30, 30, 20, 390, 350, 290, 230, 210,
  170, 140, 110, 90, 80, 70, 60, 50, 40, 40, 40, 30, 30, 30, 20,
  420, 360, 310, 260, 200, 180, 150, 110, 100, 80, 70, 60, 50, 40, 40,
  40, 30, 30, 30, 30, 440, 380, 340, 300, 240, 190, 160, 120, 100, 80,
  70, 60, 50, 50, 40, 40, 30, 30, 30, 30, 460, 410, 360, 320, 230,
  200, 160, 120, 100, 90, 80, 60, 50, 50, 40, 40, 40, 30, 30, 30,
  490, 430, 380, 320, 240, 200, 170, 120, 110, 90, 80, 60, 60, 50, 50,
  40, 40, 30, 30, 30, 510, 450, 410, 330, 240, 210, 170, 130, 110, 90,
  80, 70, 60, 50, 50, 40, 40, 30, 30, 30, 530, 480, 420, 340, 260,
  210, 180, 130, 120, 100, 90, 70, 70, 60, 50, 40, 40, 40, 30, 30,
  560, 490, 430, 350, 270, 220, 180, 140, 120, 100, 90, 80, 70, 60, 50,
  50, 40, 40, 30, 30, 570, 520, 450, 370, 290, 220, 180, 150, 120, 110,
  90, 80, 70, 60, 50, 50, 40, 40, 30, 30, 600, 520, 460, 380, 300,
  230, 190, 150, 130, 110, 90, 80, 70, 60, 60, 50, 40, 40, 40, 30,
  620, 520, 450, 380, 300, 230, 200, 160, 130, 120, 100, 80, 70, 60, 60,
  50, 40, 40, 40, 30, 640, 530, 460, 390, 310, 240, 200, 160, 140, 120,
  100, 80, 80, 70, 60, 50, 50, 40, 40, 30, 650, 550, 460, 400, 320,
  250, 200, 170, 140, 120, 100, 90, 80, 70, 60, 50, 50, 40, 40, 40,
  680, 570, 470, 400, 330, 250, 210, 180, 140, 120, 100, 90, 80, 70, 60,
  50, 50, 40, 40, 40, 690, 580, 490, 410, 340, 260, 220, 190, 150, 120,
  110, 90, 90, 70, 60, 50, 50, 40, 40, 40, 720, 600, 510, 410, 340,
  270, 220, 190, 150, 130, 110, 90, 90, 70, 60, 60, 50, 40, 40, 40,
  730, 620, 530, 440, 350, 270, 230, 200, 160, 130, 120, 100, 90, 70, 70,
  60, 50, 50, 40, 40, 740, 640, 550, 450, 360, 280, 230, 200, 160, 130,
  120, 100, 90, 80, 70, 60, 50, 50, 40, 40, 760, 660, 560, 460, 370,
  290, 240, 210, 170, 140, 120, 100, 90, 80, 70, 60, 50, 50, 40, 40,
  350, 320, 260, 240, 190, 160, 130, 110, 90, 70, 60, 50, 50, 40, 40,
  30, 30, 30, 20, 20, 390, 340, 290, 240, 200, 170, 140, 110, 90, 80,
  60, 60, 50, 40, 40, 30, 30, 30, 20, 20, 400, 350, 290, 240, 200,
  180, 150, 110, 100, 80, 70, 60, 50, 40, 40, 40, 30, 30, 30, 20,
  430, 380, 330, 240, 210, 180, 150, 120, 100, 80, 70, 60, 50, 40, 40,
  40, 30, 30, 30, 20, 460, 410, 350, 260, 230, 190, 160, 120, 100, 80,
  70, 60, 50, 50, 40, 40, 30, 30, 30, 30, 470, 420, 340, 290, 240,
  190, 160, 120, 100, 90, 80, 60, 60, 50, 40, 40, 30, 30, 30, 30,
  500, 440, 380, 320, 250, 200, 170, 130, 100, 90, 80, 70, 60, 50, 50,
  40, 40, 30, 30, 30, 530, 460, 400, 330, 250, 200, 170, 130, 110, 90,
  80, 70, 60, 50, 50, 40, 40, 30, 30, 30, 540, 480, 410, 340, 260,
  210, 170, 130, 120, 100, 80, 70, 60, 50, 50, 40, 40, 30, 30, 30,
  580, 500, 440, 350, 270, 210, 170, 140, 120, 100, 90, 70, 60, 60, 50,
  40, 40, 30, 30, 30, 580, 500, 440, 370, 280, 220, 180, 150, 120, 100,
  90, 80, 70, 60, 50, 50, 40, 40, 30, 30, 600, 510, 440, 360, 290,
  220, 180, 150, 130, 110, 90, 80, 70, 60, 50, 50, 40, 40, 30, 30,
  640, 520, 440, 380, 300, 230, 190, 150, 130, 110, 90, 80, 70, 60, 50,
  50, 40, 40, 30, 30, 640, 540, 450, 380, 310, 230, 200, 160, 130, 110,
  100, 80, 70, 60, 60, 50, 40, 40, 40, 30, 660, 560, 470, 400, 310,
  240, 200, 170, 140, 120, 100, 80, 80, 60, 60, 50, 40, 40, 40, 30,
  690, 580, 480, 400, 320, 250, 210, 170, 140, 120, 100, 90, 80, 70, 60,
  50, 50, 40, 40, 30, 700, 600, 510, 420, 330, 260, 210, 180, 140, 120,
  110, 90, 80, 70, 60, 50, 50, 40, 40, 40, 730, 620, 520, 420, 340,
  260, 220, 180, 150, 130, 110, 90, 80, 70, 60, 50, 50, 40, 40, 40,
  730, 630, 540, 440, 350, 270, 220, 190, 150, 130, 110, 90, 80, 70, 60,
  60, 50, 40, 40, 40, 750, 650, 550, 450, 360, 280, 230, 200, 160, 130,
  110, 100, 80, 70, 60, 60, 50, 50, 40, 40, 350, 300, 270, 230, 190,
  160, 130, 110, 90, 70, 60, 50, 40, 40, 30, 30, 30, 20, 20, 20,
  380, 320, 280, 240, 200, 170, 140, 110, 90, 80, 60, 50, 50, 40, 40,
  30, 30, 30, 20, 20, 410, 330, 280, 240, 200, 170, 140, 110, 90, 80,
  70, 60, 50, 40, 40, 30, 30, 30, 20, 20, 420, 360, 300, 250, 210,
  180, 150, 120, 100, 80, 70, 60, 50, 40, 40, 30, 30, 30, 20, 20,
  440, 380, 300, 260, 220, 180, 150, 120, 100, 80, 70, 60, 50, 40, 40,
  40, 30, 30, 30, 20, 470, 390, 340, 280, 220, 180, 150, 120, 100, 90,
  70, 60, 50, 50, 40, 40, 30, 30, 30, 20, 500, 410, 340, 300, 250,
  190, 160, 120, 100, 90, 70, 60, 50, 50, 40, 40, 30, 30, 30, 20,
  520, 440, 370, 320, 250, 190, 160, 130, 110, 90, 80, 60, 60, 50, 40,
  40, 30, 30, 30, 20, 530, 460, 380, 340, 260, 200, 160, 130, 110, 90,
  80, 70, 60, 50, 40, 40, 30, 30, 30, 30, 550, 490, 420, 340, 260,
  200, 170, 130, 110, 90, 80, 70, 60, 50, 50, 40, 40, 30, 30, 30,
  580, 500, 430, 340, 270, 210, 170, 140, 110, 100, 80, 70, 60, 50, 50,
  40, 40, 30, 30, 30, 590, 500, 430, 350, 280, 220, 180, 140, 120, 100,
  80, 70, 60, 50, 50, 40, 40, 30, 30, 30, 620, 510, 440, 370, 290,
  220, 190, 150, 120, 100, 90, 70, 70, 60, 50, 40, 40, 30, 30, 30,
  650, 530, 440, 360, 290, 230, 190, 150, 130, 110, 90, 80, 70, 60, 50,
  50, 40, 40, 30, 30, 660, 550, 460, 380, 300, 240, 200, 160, 130, 110,
  90, 80, 70, 60, 50, 50, 40, 40, 30, 30, 670, 570, 470, 390, 310,
  240, 200, 160, 130, 110, 100, 80, 70, 60, 50, 50, 40, 40, 30, 30,
  700, 580, 500, 400, 320, 250, 210, 170, 140, 120, 100, 80, 70, 60, 60,
  50, 40, 40, 40, 30, 700, 610, 520, 420, 330, 260, 210, 170, 140, 120,
  100, 90, 80, 70, 60, 50, 40, 40, 40, 30, 740, 630, 520, 430, 330,
  260, 220, 180, 150, 120, 100, 90, 80, 70, 60, 50, 50, 40, 40, 30,
  740, 640, 540, 440, 340, 270, 220, 180, 160, 130, 110, 90, 80, 70, 60,
  50, 50, 40, 40, 40]

theorem scatterKeeley_length : scatterKeeley.length = 8000 := by decide +kernel

theorem scatterKeeley_bounds : (scatterKeeley.all fun x => Nat.ble 0 x && Nat.ble x 790) = true := by
  decide +kernel

end PyHalo.MassLossTables
